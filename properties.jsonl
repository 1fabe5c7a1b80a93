{"id": "C01", "title": "Check enabling follows the documented override order", "statement": "Without --only-enabled, whether a check runs is decided by the last step, in the order config `disable`, config `enable_*`, command line -d, command line -e, that names it; a check named by none of them runs.", "quantifier": "every check id and every four lists of ids (any length, duplicates and unknown ids included)", "why_tests_cant": "four unbounded lists interact; tests sample a handful of combinations", "anchors": ["src/runner.c:is_check_enabled", "src/string_list.c:str_in_sl", "selint.conf (steps 1-5)"]}
{"id": "C02", "title": "--only-enabled runs exactly the -e checks", "statement": "With --only-enabled, a check runs iff it is listed with -e; config enable/disable lists and -d have no influence.", "quantifier": "every check id and every four lists", "why_tests_cant": "quantifies over all settings of the lists that must NOT matter", "anchors": ["src/runner.c:is_check_enabled"]}
{"id": "C03", "title": "Severity level selects exactly the checks at or above it", "statement": "For a valid level L, a check function is hooked on a node kind iff the pair is in the documented check table, the check's severity is at or above L, the check is enabled and its data precondition holds (E-007: at least one permission and one permission macro known; E-008: at least one class known). Raising the level never adds a check. An invalid level registers nothing and is reported as an error.", "quantifier": "every level character, every enable/disable configuration, every symbol-table state", "why_tests_cant": "256 levels x unbounded configurations; fall-through switch", "anchors": ["src/runner.c:register_checks", "src/check_hooks.c:add_check", "src/te_checks.c:check_unknown_permission_condition", "src/te_checks.c:check_unknown_class_condition"]}
{"id": "C04", "title": "An inline selint-disable suppresses the named check on that line only", "statement": "A check whose id appears in a node's selint-disable list reports nothing on that node, and the list changes neither the other checks on that node nor any check on other nodes.", "quantifier": "every registered check set, every node, every exception string, every tree", "why_tests_cant": "must hold for every check/node pair, including ids that are substrings of listed ones", "anchors": ["src/check_hooks.c:call_checks_for_node_type", "src/parse_functions.c:save_command", "README (SELINT EXCEPTIONS)"]}
{"id": "C05", "title": "Every hooked check runs exactly once per matching node, in document order", "statement": "Running the checks over a file yields, in order, exactly the results of applying each hooked check to each node of its kind: nodes in document (pre-) order, checks in registration order on one node, each pair once, followed by the end-of-file hooks.", "quantifier": "every tree (any size and depth) and every table of checks", "why_tests_cant": "unbounded trees; a missed or doubled visit only shows on particular shapes", "anchors": ["src/runner.c:run_checks_on_one_file", "src/check_hooks.c:call_checks", "src/tree.c:dfs_next"]}
{"id": "C06", "title": "Issue counters agree with the findings and do not depend on output mode", "statement": "After a run the counter of each hook equals the number of findings it produced, the found-issue flag is set iff there was at least one finding, and both are unchanged by --summary-only, which only silences the individual lines.", "quantifier": "every sequence of check invocations over every list of files", "why_tests_cant": "a statement about whole histories of invocations", "anchors": ["src/check_hooks.c:call_checks_for_node_type", "src/check_hooks.c:found_issue", "src/main.c:main (SUMMARY_ONLY_ID)"]}
{"id": "C07", "title": "The summary prints each check id once with its exact total", "statement": "The summary lists each check id that has findings exactly once, with the total over all node kinds it is hooked on, ordered convention, style, warning, error and then by number; it prints (none) iff there were no findings.", "quantifier": "every populated table of hooks, any counters, any sorting algorithm that respects the comparison function", "why_tests_cant": "depends on adjacency after an unspecified qsort; tests see one qsort and few tables", "anchors": ["src/check_hooks.c:display_check_issue_counts", "src/check_hooks.c:comp_check_nodes"]}
{"id": "C08", "title": "Process exit status", "statement": "If analysis fails the exit status is EX_SOFTWARE whatever else happened; otherwise it is EX_DATAERR iff --fail was given and at least one issue was found, and EX_OK otherwise; usage/config errors exit before analysis with EX_USAGE/EX_CONFIG.", "quantifier": "every outcome of option parsing, configuration and analysis", "why_tests_cant": "scripts gate on it for all option combinations", "anchors": ["src/main.c:main", "src/check_hooks.c:found_issue"]}
{"id": "C09", "title": "Tree traversal visits every node exactly once in document order and terminates", "statement": "Starting at the file node and following the next-node function reaches every node of the tree exactly once, in document order, and then stops.", "quantifier": "every tree, any width and depth", "why_tests_cant": "unbounded structures; the upward loop is only exercised by deep right spines", "anchors": ["src/tree.c:dfs_next"]}
{"id": "C10", "title": "Tree insertion keeps the linked structure well formed", "statement": "Inserting a child appends it after all existing children with correct parent/prev/next links and changes nothing else; inserting a successor links both directions and inherits the parent; a NULL anchor is rejected without effect. Any sequence of insertions as performed by the parser leaves a well-formed doubly linked tree.", "quantifier": "every well-formed heap of nodes, every insertion point, every sequence of insertions", "why_tests_cant": "pointer-structure invariant over unbounded histories", "anchors": ["src/tree.c:insert_policy_node_child", "src/tree.c:insert_policy_node_next"]}
{"id": "C11", "title": "Freeing a tree frees every node exactly once", "statement": "Freeing the root of a well-formed tree releases each of its nodes exactly once, never touches a node after releasing it, and leaves no node of the tree allocated.", "quantifier": "every well-formed heap tree", "why_tests_cant": "double free / leak depends on shape; unbounded", "anchors": ["src/tree.c:free_policy_node"]}
{"id": "C12", "title": "The syntax tree mirrors the source", "statement": "For every file accepted by the grammar the tree lists the statements in source order, each block's statements (and nothing else) as children of the block node after one start marker, and parsing ends at the nesting depth at which it began.", "quantifier": "every derivation of the te / if grammar, any length and nesting", "why_tests_cant": "unbounded nesting of blocks; tests sample a few files", "anchors": ["src/parse.y", "src/parse_functions.c:begin_block", "src/parse_functions.c:end_block"]}
{"id": "C13", "title": "Require blocks and templates do not declare", "statement": "A name appearing in a require block never enters the symbol tables; a declaration inside a template only enters the template's own declaration list; every other non-parameter declaration is recorded under the current module.", "quantifier": "every parse state (any nesting of blocks) and every declaration", "why_tests_cant": "depends on the whole chain of enclosing blocks", "anchors": ["src/parse_functions.c:insert_declaration", "src/tree.c:is_in_require", "src/tree.c:get_name_if_in_template"]}
{"id": "C14", "title": "Symbol tables: first declaration wins and is permanent", "statement": "After any sequence of insertions, looking a name up in a symbol class returns the module of the first insertion of that name in that class and nothing if there was none; insertions in one class never affect another; counts equal the number of distinct names.", "quantifier": "every sequence of insertions and lookups", "why_tests_cant": "a statement about all histories", "anchors": ["src/maps.c:insert_into_decl_map", "src/maps.c:look_up_in_decl_map", "src/maps.c:decl_map_count", "src/maps.c:insert_into_mods_map", "src/maps.c:insert_into_ifs_map"]}
{"id": "C15", "title": "All symbols are known before the first check runs", "statement": "Every check invocation sees the symbol tables as they are after all interface, context, te and fc files have been parsed; running checks never changes them, so findings do not depend on which file is checked first.", "quantifier": "every set of input files and every set of check functions", "why_tests_cant": "an ordering property of the whole run for unboundedly many files", "anchors": ["src/runner.c:run_analysis", "src/runner.c:parse_all_files_in_list"]}
{"id": "C16", "title": "Context files never produce findings", "statement": "Files that are only part of the context are parsed for their symbols but no check is ever invoked on their nodes; the list of files to check is restored after the joint transform-marking pass.", "quantifier": "every pair of file lists (empty lists included)", "why_tests_cant": "the temporary list splice must be undone for every combination of empty and non-empty lists", "anchors": ["src/runner.c:run_analysis", "src/file_list.c:file_list_push_back"]}
{"id": "C17", "title": "A parse failure aborts the run without findings", "statement": "If any file cannot be parsed, no check is invoked on any file, the run reports a parse error, and parser state is cleaned up exactly once whatever the outcome.", "quantifier": "every list of files and every position of the failing file", "why_tests_cant": "all positions and all earlier successes", "anchors": ["src/runner.c:run_analysis", "src/runner.c:parse_all_files_in_list", "src/runner.c:parse_all_fc_files_in_list"]}
{"id": "C18", "title": "Template expansion terminates and detects call loops", "statement": "Expanding a template call terminates for every table of templates, including self- and mutually recursive ones, and reports a call loop iff some chain of nested calls starting at it repeats a template name before any other failure.", "quantifier": "every template table and call", "why_tests_cant": "non-termination and cycles of any length", "anchors": ["src/template.c:add_template_declarations"]}
{"id": "C19", "title": "Template expansion declares exactly the substituted names", "statement": "When expansion succeeds, the names declared are exactly those obtained by substituting the (transitively substituted) call arguments into the declarations of every template reached, callees before callers, each under the calling module.", "quantifier": "every acyclic template table, every argument list", "why_tests_cant": "transitive substitution through arbitrarily deep call chains", "anchors": ["src/template.c:add_template_declarations", "src/template.c:replace_m4_list", "src/template.c:replace_m4"]}
{"id": "C20", "title": "m4 argument substitution is correct", "statement": "Substituting arguments into a name replaces each $n by the n-th argument (or nothing when there are fewer), copies all other text unchanged, and fails iff some $ is not followed by a number.", "quantifier": "every string and argument list", "why_tests_cant": "unbounded strings; sscanf corner cases", "anchors": ["src/template.c:replace_m4"]}
{"id": "C21", "title": "m4 argument substitution stays inside its buffer", "statement": "Substitution never writes past the buffer it allocates and always returns a terminated string.", "quantifier": "every string and argument list", "why_tests_cant": "memory safety for all lengths and reference counts; sanitizer runs see few inputs", "anchors": ["src/template.c:replace_m4"]}
{"id": "C22", "title": "Transform-interface marking is the least fixpoint and terminates", "statement": "After marking, an interface is a transform interface iff it was marked while parsing or its first statement (after requires) is a call to a transform interface, transitively, independent of file order; the marking loop always terminates.", "quantifier": "every collection of interface files, including cyclic call graphs", "why_tests_cant": "fixpoint over unbounded call chains in any order", "anchors": ["src/startup.c:mark_transform_interfaces", "src/startup.c:mark_transform_interfaces_one_file"]}
{"id": "C23", "title": "Permission-set computation", "statement": "The permission mask of a permission list is the union of the masks of its entries, macros expanded transitively; it is insensitive to order and repetition, and unknown names only set the 'uncovered' bit. Computation terminates when macro definitions are not circular.", "quantifier": "every permission list and every (acyclic) macro table", "why_tests_cant": "arbitrary nesting of macros", "anchors": ["src/perm_macro.c:compute_perm_mask", "src/perm_macro.c:str_to_mask"]}
{"id": "C24", "title": "A suggested permission macro is sound", "statement": "Whenever S-010 suggests a macro: it is a known macro for exactly the rule's class, contains only permissions already granted or reasonable extensions of them, covers at least two granted permissions and replaces at least two entries, is not already used in the rule, and the message's replaced entries are exactly those fully covered and the 'would add' entries exactly the macro's permissions not granted by the rule.", "quantifier": "every macro table, class and permission list", "why_tests_cant": "combinatorial in 25 permissions and unbounded macro tables", "anchors": ["src/perm_macro.c:permmacro_check", "src/perm_macro.c:mask_to_str", "src/perm_macro.c:permission_strings_matched_str"]}
{"id": "C25", "title": "A suggested permission macro is a best one", "statement": "No eligible macro covers more of the granted permissions than the suggested one, and none covering equally many adds fewer; a suggestion is made iff there is an eligible macro and the selected best one is not already in use.", "quantifier": "every macro table, class and permission list", "why_tests_cant": "optimality over all candidates", "anchors": ["src/perm_macro.c:permmacro_check", "src/perm_macro.c:load_permission_macro"]}
{"id": "C26", "title": "Permission macro lists are sorted and complete", "statement": "The per-class macro list contains exactly the macros for that class without uncovered permissions, in ascending order of number of permissions, ties in definition order.", "quantifier": "every macro table", "why_tests_cant": "insertion into a linked list for any history", "anchors": ["src/perm_macro.c:load_permission_macro"]}
{"id": "C27", "title": "Bit counting", "statement": "The permission count of a mask is the number of set bits, for every 32-bit mask, and the loop terminates.", "quantifier": "all 2^32 masks", "why_tests_cant": "2^32 values", "anchors": ["src/perm_macro.c:popcount"]}
{"id": "C28", "title": "String builder never overflows", "statement": "Appending any sequence of strings keeps the buffer large enough for the contents plus terminator, and the final text is the concatenation of the pieces.", "quantifier": "every sequence of appends from every reachable builder", "why_tests_cant": "growth-by-doubling for all lengths", "anchors": ["src/perm_macro.c:sb_create", "src/perm_macro.c:sb_append_strn"]}
{"id": "C29", "title": "C-001 leaves a consistent order and flags as few lines as possible", "statement": "The lines C-001 does not flag form a subsequence in which each line may follow its predecessor; when the line comparison is a consistent (total, transitive) order this subsequence is a longest one, so the number of flagged lines is minimal.", "quantifier": "every list of lines and every comparison function", "why_tests_cant": "optimality over exponentially many subsequences", "anchors": ["src/ordering.c:calculate_longest_increasing_subsequence", "src/te_checks.c:check_te_order"]}
{"id": "C30", "title": "C-001 ordering computation is in bounds and terminates", "statement": "For every file with at least one ordered line, all array accesses of the ordering computation are in range, previous-links point strictly backwards and the marking loop terminates with at least one line in order.", "quantifier": "every list of lines and every comparison function", "why_tests_cant": "memory safety for all inputs; the empty case must be excluded explicitly", "anchors": ["src/ordering.c:calculate_longest_increasing_subsequence"]}
{"id": "C31", "title": "C-001 never rejects both orders of two lines", "statement": "For any two te-file lines at least one of the two relative orders is accepted by the ordering rules, in every ordering variant.", "quantifier": "every pair of nodes, every symbol table, every variant and section statistics", "why_tests_cant": "pairwise property over all nodes and configurations", "anchors": ["src/ordering.c:compare_nodes_refpolicy_generic"]}
{"id": "C32", "title": "A line's ordering context is the outermost conditional block", "statement": "For ordering, a node counts as optional / boolean / tunable / build-option dependent according to its outermost enclosing conditional block, and to exactly one of them.", "quantifier": "every node in every tree", "why_tests_cant": "unbounded nesting", "anchors": ["src/ordering.c:is_optional", "src/ordering.c:is_boolean", "src/ordering.c:is_tunable", "src/ordering.c:is_in_ifdef", "src/ordering.c:get_local_subsection"]}
{"id": "C33", "title": "Unordered permissions are reported exactly when unordered", "statement": "C-005 reports a rule or class declaration iff two neighbouring permissions (leading ~ and range dashes aside) are not in strictly ascending order; hence a reported-free list without ~ and - is sorted and duplicate free.", "quantifier": "every permission list", "why_tests_cant": "unbounded lists", "anchors": ["src/te_checks.c:check_unordered_perms"]}
{"id": "C34", "title": "Require-block ordering", "statement": "C-006 accepts a require block iff each declaration is correctly ordered with its successor: by the configured flavor order and, if configured, by name ignoring a final _t; 'repeated' is reported only for equal flavor and name.", "quantifier": "every list of declarations and every configuration", "why_tests_cant": "unbounded lists and all 720 flavor orders", "anchors": ["src/if_checks.c:check_unordered_declaration_in_require", "src/if_checks.c:compare_declarations"]}
{"id": "C35", "title": "File-context line parsing round-trip", "statement": "Parsing the textual form of any well-formed entry (path, optional object class, gen_context with optional level and category, bare context or <<none>>) yields exactly that entry.", "quantifier": "every well-formed entry", "why_tests_cant": "unbounded field contents; strtok-based in-place parsing", "anchors": ["src/parse_fc.c:parse_fc_line", "src/parse_fc.c:parse_context"]}
{"id": "C36", "title": "File-context line parsing is memory safe", "statement": "Parsing any line reads and writes only inside the line.", "quantifier": "every line", "why_tests_cant": "memory safety for all inputs", "anchors": ["src/parse_fc.c:parse_fc_line"]}
{"id": "C37", "title": "Every file-context line is accounted for with its line number", "statement": "Each line of a file-context file that is not blank, a comment, an m4 construct or a custom macro yields exactly one entry or error node, in order and with its own line number; no other nodes are produced.", "quantifier": "every file (list of lines) and every list of custom macros", "why_tests_cant": "unbounded files", "anchors": ["src/parse_fc.c:parse_fc_file", "src/parse_fc.c:check_for_fc_macro"]}
{"id": "C38", "title": "Unescaped regex characters in paths are reported exactly", "statement": "W-004 reports a path iff outside bracket groups it has a '.' that is neither preceded by a backslash nor followed by * + or ?, or a * or + not preceded by a backslash, '.', ']' or ')'; the reported position is that of the first such character.", "quantifier": "every path", "why_tests_cant": "unbounded strings; scanning with look-behind and look-ahead", "anchors": ["src/fc_checks.c:check_file_context_regex"]}
{"id": "C39", "title": "File-context user, role and type checks", "statement": "E-003/E-004/E-005 report an entry iff its context's user/role/type is not a declared one; S-002 reports iff the type is declared in another module and the file is not an exempt generated file; entries labelled <<none>> are never reported.", "quantifier": "every entry, symbol table and file name", "why_tests_cant": "all symbol tables", "anchors": ["src/fc_checks.c:check_file_context_users", "src/fc_checks.c:check_file_context_roles", "src/fc_checks.c:check_file_context_types_exist", "src/fc_checks.c:check_file_context_types_in_mod"]}
{"id": "C40", "title": "W-001: foreign names need a preceding require", "statement": "In a te file, a statement is reported iff it uses a type or attribute of another module that is not listed in a require block preceding it at its own or an enclosing nesting level.", "quantifier": "every statement position in every tree and every symbol table", "why_tests_cant": "search along prev/parent chains of any shape", "anchors": ["src/te_checks.c:check_no_explicit_declaration", "src/te_checks.c:has_require"]}
{"id": "C41", "title": "W-002: names used in an interface must be required before use", "statement": "In an interface or template, a statement is reported iff it uses a known type, attribute or role (other than system_r) that is not listed in a require block occurring earlier in the same definition at any nesting level.", "quantifier": "every statement in every interface tree and every symbol table", "why_tests_cant": "unbounded trees", "anchors": ["src/if_checks.c:check_name_used_but_not_required_in_if", "src/tree.c:get_names_required"]}
{"id": "C42", "title": "W-003: required names must be used", "statement": "A required type, attribute or role in an interface (not named *_stub) is reported iff it is used by no statement following the require block within the enclosing block.", "quantifier": "every interface tree", "why_tests_cant": "traversal with explicit depth counter over unbounded trees", "anchors": ["src/if_checks.c:check_name_required_but_not_used_in_if"]}
{"id": "C43", "title": "W-005: calls to module interfaces must be optional", "statement": "A call is reported iff the interface is known, belongs to another module whose status is known and not base, and no enclosing block is an optional block.", "quantifier": "every call at any nesting depth, every module table", "why_tests_cant": "unbounded nesting", "anchors": ["src/te_checks.c:check_module_if_call_in_optional"]}
{"id": "C44", "title": "Configuration validation", "statement": "A configuration is accepted only if severity, ordering rules and booleans have documented values and ordering_requires is a permutation of the six flavors; accepted settings are transferred faithfully; every other configuration is rejected with a configuration error.", "quantifier": "every configuration content", "why_tests_cant": "all lists of strings", "anchors": ["src/selint_config.c:parse_config", "src/selint_config.c:parse_bool"]}
{"id": "C45", "title": "modules.conf parsing", "statement": "Every line 'name = status' enters name with status; blank and comment lines are ignored; malformed lines are an error; parsing only touches the line read.", "quantifier": "every line and file", "why_tests_cant": "in-place tokenising without bounds; memory safety for all lines", "anchors": ["src/startup.c:load_modules_source", "src/startup.c:strip_space"]}
{"id": "C46", "title": "Check ids given by the user are validated", "statement": "The id validity test accepts every id of an existing check and rejects every string that is not of the form severity letter, dash, number in range.", "quantifier": "every string", "why_tests_cant": "all strings", "anchors": ["src/check_hooks.c:is_valid_check"]}
{"id": "C47", "title": "File selection", "statement": "Each visited path is put in exactly the list its suffix demands and in no other; without -r only explicitly named files are checked; with -r nothing below a hidden directory is checked unless --scan-hidden-dirs is given; context files already being checked are not parsed twice.", "quantifier": "every directory forest and option combination", "why_tests_cant": "unbounded directory trees", "anchors": ["src/main.c:main (fts loops)", "src/file_list.c:file_name_in_file_list"]}
{"id": "C48", "title": "Lexing is total and maximal", "statement": "The tokenizer makes progress on every input, never hits an unmatched character, and classifies a word as a keyword only if the whole word is that keyword.", "quantifier": "every input text", "why_tests_cant": "all texts; longest-match interplay of 80 rules", "anchors": ["src/lex.l"]}
{"id": "C49", "title": "Recognition of selint-disable comments", "statement": "A comment of a documented selint-disable form at the end of a line is turned into exceptions naming exactly the listed ids.", "quantifier": "every list of ids in every documented spacing", "why_tests_cant": "unbounded lists; flex trailing context", "anchors": ["src/lex.l (SELINT_COMMAND)", "src/parse_functions.c:save_command"]}
{"id": "C50", "title": "Names used by a statement", "statement": "The names extracted from a statement are exactly those the statement mentions (sources, targets, results, roles, attributes, arguments), in order, with an exclusion dash removed.", "quantifier": "every statement", "why_tests_cant": "unbounded lists for each of 13 statement kinds", "anchors": ["src/tree.c:get_names_in_node", "src/tree.c:get_names_required"]}
{"id": "C51", "title": "Call-argument and permission sanity checks", "statement": "W-006 reports exactly calls without arguments, W-008 exactly allow rules with * or ~, E-007/E-008 exactly rules using a permission/class that is neither known, a macro/class set nor a parameter, E-009 exactly blocks without statements, W-010 exactly calls with a known module prefix to unknown interfaces.", "quantifier": "every statement and symbol table", "why_tests_cant": "all symbol tables and lists", "anchors": ["src/te_checks.c:check_empty_if_call_arg", "src/te_checks.c:check_risky_allow_perm", "src/te_checks.c:check_unknown_permission", "src/te_checks.c:check_unknown_class", "src/te_checks.c:check_empty_block", "src/te_checks.c:check_unknown_interface_call"]}
{"id": "C52", "title": "Command-line path array is large enough", "statement": "The array holding the paths to scan is large enough for all path arguments plus terminator, and for the two-element reuse when scanning context paths.", "quantifier": "every argument count and every option index", "why_tests_cant": "arithmetic for all argc/optind", "anchors": ["src/main.c:387"]}
{"id": "C53", "title": "C-001 message completeness", "statement": "The text of a C-001 report always fits the buffer computed for it: whatever the subsection, reason and note, and for every line number an unsigned int can hold, the message is stored completely and no byte is written outside the buffer.", "quantifier": "every subsection text, reason, note and 32-bit line number", "why_tests_cant": "The buffer size is a sum of string lengths plus a constant; tests use small line numbers and a few reasons and would not notice an off-by-one for ten-digit line numbers together with a note.", "anchors": ["src/ordering.c:get_ordering_reason"]}
{"id": "C54", "title": "C-001 enforces the documented order", "statement": "Declarations stand before the rules of every other section; inside a section, lines are ordered by their subsection in the documented order of the chosen variant (refpolicy: self rules, own rules, kernel module, kernel layer, system layer, other calls, build options, booleans, tunables, optionals; light: no layers but related modules; lax: self, own, rest). Outside of conditional blocks a call is placed by the module and layer of the interface it calls and a rule by the owners of the types it names.", "quantifier": "every pair of lines, every symbol table, every section statistics and every ordering variant", "why_tests_cant": "The order is spread over macro invocations for three variants and a dozen predicates; functional tests check a handful of files for one variant.", "anchors": ["src/ordering.c:compare_nodes_refpolicy_generic", "src/ordering.c:get_local_subsection", "src/ordering.c:is_related_mod_if_call"]}
{"id": "C55", "title": "C-007 reports redundant targets", "statement": "C-007 reports an access vector rule iff it has exactly one source and exactly one target, both are the same word, the word is not self, and it is either a parameter ($...) ending in _t or a known type.", "quantifier": "every rule and every symbol table", "why_tests_cant": "The interplay of single words, parameters and known types has many combinations; tests show a few rules.", "anchors": ["src/te_checks.c:check_no_self"]}
{"id": "C56", "title": "Header and require-block checks of te files", "statement": "In a te file a require block is reported (S-001) iff it requires anything but classes and permissions; a header is reported by S-006 iff it is a bare module statement and by W-009 iff the module name is not the file name without its last extension.", "quantifier": "every block, every header, every file name", "why_tests_cant": "File names with several or no dots and headers that are prefixes of the file name are not in the tests.", "anchors": ["src/te_checks.c:check_require_block", "src/te_checks.c:check_bare_module_statement", "src/te_checks.c:check_module_file_name_mismatch"]}
{"id": "C57", "title": "S-009 reports exactly the misfitting permission macros", "statement": "S-009 reports the first permission ending in _perms that is not named for all classes of the rule (with term for chr_file, signal for process; a macro for a special file class is not one for file) and is not a socket macro used for socket classes; a rule on a class set is not checked.", "quantifier": "every rule: any classes, any permissions", "why_tests_cant": "Suffix comparisons with several classes and overlapping suffixes (lnk_file/file, netlink sockets) have too many cases to test.", "anchors": ["src/te_checks.c:check_perm_macro_class_mismatch", "src/te_checks.c:ends_with_all_suffix_perms"]}
{"id": "C58", "title": "S-010 as a whole", "statement": "Called on one rule after another, S-010 reports a rule iff it is an allow rule with exactly one class, no class set, and the macro that does best for it is not yet among its permissions; the static tables it keeps stay those of the loaded macros.", "quantifier": "every sequence of rules and every table of acyclic macros", "why_tests_cant": "The check keeps static state between calls; tests start from a fresh process.", "anchors": ["src/te_checks.c:check_perm_macro_available", "src/perm_macro.c:permmacro_check"]}
{"id": "C59", "title": "W-007 names the first unquoted space", "statement": "W-007 reports a call iff two words of its arguments are separated by an unquoted space where the second word is not an exclusion or the first is a known symbol; it names the first such place by the word before it and the number of its argument.", "quantifier": "every argument list and symbol table", "why_tests_cant": "The argument counter and the remembered previous word must agree for arguments of any number of words.", "anchors": ["src/te_checks.c:check_space_if_call_arg"]}
{"id": "C60", "title": "Name clashes and stray words", "statement": "E-006 reports a declaration iff an interface of that name is known. E-010 reports a stray word iff it is not configured as a macro and is not inside an argument of the innermost ifelse around it that is compared with another (number not divisible by three, not the last).", "quantifier": "every tree, position and configuration", "why_tests_cant": "Position in nested ifelse blocks at arbitrary depth.", "anchors": ["src/te_checks.c:check_declaration_interface_nameclash", "src/te_checks.c:check_stray_word", "src/te_checks.c:is_ifelse_argument"]}
{"id": "C61", "title": "Interface style checks", "statement": "C-004 reports a definition iff the node before it is no comment; S-004 reports a call iff its innermost definition is an interface and the called name is a known template; S-005 reports a declaration iff the innermost definition or require block around it is an interface definition; S-008 reports a gen_require iff its argument is unquoted.", "quantifier": "every tree and position", "why_tests_cant": "The enclosing node is searched through any number of levels.", "anchors": ["src/if_checks.c:check_interface_definitions_have_comment", "src/if_checks.c:check_if_calls_template", "src/if_checks.c:check_decl_in_if", "src/if_checks.c:check_unquoted_gen_require_block"]}
{"id": "C62", "title": "W-011 reports foreign requirements", "statement": "In an if file W-011 reports a declaration inside a require block (no class, permission, user or parameter) iff the symbol is declared nowhere, or its first declaration is in another module, other than a role of the module kernel.", "quantifier": "every declaration, position and symbol table", "why_tests_cant": "Depends on the history of insertions into the symbol table and on enclosing blocks at any depth.", "anchors": ["src/if_checks.c:check_required_declaration_own"]}
{"id": "C63", "title": "Properties of interfaces", "statement": "Parsing marks an interface as transforming its argument, as a role interface or as a file transition interface exactly if a direct statement of its body says so; templates and other files mark nothing.", "quantifier": "every definition, every symbol table before, every accepted file", "why_tests_cant": "The marks depend on the position of statements at any nesting depth, on names and on the outcome of template expansion.", "anchors": ["src/parse_functions.c:insert_av_rule", "src/parse_functions.c:insert_attribute", "src/parse_functions.c:insert_role_types", "src/parse_functions.c:insert_type_transition", "src/parse_functions.c:insert_interface_call"]}
{"id": "C64", "title": "Support files and access vectors", "statement": "A support file records exactly its permission sets that are not deprecated, the first definition of a name counts; an access vector file records exactly its classes and permissions.", "quantifier": "every derivation of such a file and every symbol table before", "why_tests_cant": "Files have any number of definitions, in any order, with repetitions.", "anchors": ["src/parse.y:support_def", "src/parse.y:av_class_definition", "src/parse.y:av_permission", "src/maps.c:insert_into_permmacros_map"]}
{"id": "C65", "title": "Line numbers", "statement": "In the tree of an accepted file every node after the root carries the line of a token of the text, in document order line numbers never decrease, and a simple statement or an optional_policy, gen_require or if block carries the line of its first token.", "quantifier": "every text, every derivation of its tokens, every symbol table before", "why_tests_cant": "Texts have any number of lines and nestings; a line number set in a mid-rule action is off only when a statement spans lines in an unusual way.", "anchors": ["src/lex.l:YY_USER_ACTION", "src/parse.y:@$.first_line", "src/parse_functions.c:begin_ifdef", "src/tree.c:insert_policy_node_next"]}
{"id": "C66", "title": "Output respects level and selection", "statement": "Everything a run prints is an internal error F-002 or a finding that carries the id of a check which is at or above the chosen severity level, is enabled by the configuration and the command line, and has the symbol tables it needs; in particular every check function labels its findings with the id it is registered under.", "quantifier": "every set of files, every parser result, every level, every enable and disable list, every state of the tables and of the static variables", "why_tests_cant": "Each check builds its result in several places with a literal severity and id; a run combines registration, hooks, traversal and the check bodies over trees of any size.", "anchors": ["src/runner.c:register_checks", "src/runner.c:run_all_checks", "src/check_hooks.c:call_checks_for_node_type", "src/check_hooks.c:make_check_result", "src/te_checks.c", "src/if_checks.c", "src/fc_checks.c"]}
{"id": "C67", "title": "Running the checks has defined behaviour", "statement": "A run of selint over policy files, from their texts to the findings, executes every check function without undefined behaviour (no NULL dereference, no access outside an array, no unterminated string, no unbounded recursion), and the only internal errors it can print are 'Failed to compute reason C-001' and C-006's 'Non declaration node in require block', the latter only for a require block that really contains something other than declarations; provided the permission macros are not circular and no te file consists of access vector definitions.", "quantifier": "every list of te, if and fc files, every content of them with fewer than 2^32 - 1 lines, every configuration, level, and initial tables", "why_tests_cant": "Each check function assumes a shape of the tree (payload kinds, start-block nodes, a header or comment first) that is established by parser actions elsewhere, and keeps static state between nodes and files; a test exercises some trees, the proof shows that no text yields a tree on which a check misbehaves.", "anchors": ["src/te_checks.c", "src/if_checks.c", "src/fc_checks.c", "src/ordering.c:get_ordering_reason", "src/runner.c:run_analysis", "src/parse.y"]}
{"id": "C68", "title": "The parse of a text is determined by the text", "statement": "The grammar of parse.y is unambiguous up to the grouping of conditional expressions, and no semantic action depends on that grouping: whichever derivation of a file's tokens a parser finds, the tree, the line numbers, the tables and the acceptance of the file are the same. A recursive-descent parser without backtracking over blocks finds a derivation exactly if there is one.", "quantifier": "every text, every token sequence with line numbers, every pair of derivations of it, every flavor the file is opened for, every module name and every state of the tables", "why_tests_cant": "Ambiguity is a property of all token sequences and all pairs of derivations; a test sees the one derivation that the generated automaton happens to choose. Optional trailing parts (gen_context's range, the arguments of a macro, an else branch, selint-disable comments after a statement or at the start of a block) make it non-obvious.", "anchors": ["src/parse.y", "src/Makefile.am:AM_YFLAGS"]}
{"id": "C69", "title": "Printed findings can be read back", "statement": "The line printed for a finding determines the finding: two findings are printed alike only if file, line number, severity, id and message are equal (file names with a colon excepted). Colours add escape sequences and change nothing else; the line ends in the id of the check; the line numbers of a listing are right-aligned as long as name and number fit into 22 characters.", "quantifier": "every pair of findings (any file names without colon, any line numbers, ids and messages), colours on and off", "why_tests_cant": "Injectivity is a statement about all pairs of findings; messages are free text that may contain the separators used in the line.", "anchors": ["src/check_hooks.c:display_check_result", "src/color.c"]}
{"id": "C70", "title": "Parsing well-behaved templates has defined behaviour", "statement": "If every template's declared names and call arguments refer only to arguments the template takes, each at most once, and every call passes at least as many arguments as the called template takes (inside a template at least one), then a whole run parses all its files, with all template expansions at any nesting depth, without a null-pointer access, buffer overflow or unterminated string. Being well-behaved is a property of the text, not of its derivation. Without the condition it is false: a template that refers twice to its argument makes parsing a legal te file write outside a buffer.", "quantifier": "every set of source texts and fc lines, every number and order of files in the five lists, every assignment of arities, every initial state of the tables that fits, every flavor and module name", "why_tests_cant": "The behaviour depends on all templates and all calls of the policy together, across files and through nested expansion; buffers are overrun only for particular combinations of template text and argument lengths, and an overrun does not show up reliably in a test.", "anchors": ["src/template.c:expand_template", "src/template.c:replace_m4", "src/runner.c:parse_one_file", "src/runner.c:run_analysis", "src/parse_functions.c:begin_template"]}
{"id": "C71", "title": "From the command line to the exit status", "statement": "Under stated conditions on the machine, a run of the whole program has defined behaviour. Whenever it has: if the options, configuration or paths are rejected, nothing is reported and the status is that of C08. Otherwise the status is 70 with no findings and no summary, or 65 if something was found and -F was given, or 0; the summary is printed iff it was asked for, also with --summary-only, which suppresses exactly the findings. The count shown for a check id is the number of findings of that check, and a finding is only ever reported for a checked policy file below a path of the command line and for a check that the level and the configuration enable. With -r, the status is 70 iff one of the files that the run reads (policy files below the paths except in hidden directories, te and if files below the context paths, development headers unless -s or -c is given) cannot be read or does not follow the grammar.", "quantifier": "every option list, every list of paths, every content of the file system, every configuration, all texts, with no bound on their number, size or nesting", "why_tests_cant": "Each test fixes one directory tree and one option list; the statement relates every combination of options, configuration, files and contents to the one exit status.", "anchors": ["src/main.c:main", "src/startup.c:load_access_vectors_kernel", "src/startup.c:load_devel_headers", "src/runner.c:run_analysis", "src/runner.c:run_all_checks", "src/check_hooks.c:call_checks_for_node_type", "src/check_hooks.c:display_run_summary"]}
{"id": "C72", "title": "Nothing that a check finds is lost and nothing else is printed", "statement": "A run of the whole program that is not stopped by a parse error takes a course determined by its arguments: it finds files, reads the interface files, the context files, the te files and the fc files, and checks the te, interface and fc files, each with the tree of its content, against the final tables. Without --summary-only it prints exactly the findings of the checks, in the order of the files, of the nodes in a file and of the checks at a node. A finding of a check without memory (all but C-001 and S-010) is printed iff the check is selected by level, configuration and data, and some checked file has a node, of a flavor the check is for and not excepted there, at which the check function has this result; file name and line are those of the file and node.", "quantifier": "every option list, every list of paths, every content of the file system, every configuration, all texts, every row of the table of checks, every finding", "why_tests_cant": "That no finding is lost is a statement about all nodes of all trees of all policies; a test can only show that particular findings appear.", "anchors": ["src/main.c:main", "src/runner.c:run_analysis", "src/runner.c:run_all_checks", "src/runner.c:run_checks_on_one_file", "src/check_hooks.c:call_checks_for_node_type", "src/check_hooks.c:display_check_result"]}
{"id": "C73", "title": "What the checks know is what the policy says", "statement": "The tables against which all files are checked are determined by the contents of the files that the run reads: they result from what was known from the support files by entering, in order, what the interface files of the policy and its context say, marking the transform interfaces, and entering what the te files of the context and the policy say. So an interface is known iff a support file or a read interface file defines it; a template is known to declare and call exactly what a definition of it says outside require blocks; every declaration of a read file outside require blocks and templates is known; so is everything that the call of a template in a te file expands to with the templates of all interface files, even of files read later than the caller's module; and nothing else is known: any other known name was known from support files, is a permission, or is an instance of a declaration of a template that a read file calls, directly or through other templates.", "quantifier": "every option list, every list of paths, every content of the file system, every configuration, all texts, every name and declaration flavor, with no bound on number or size of files, templates, or the depth of calls", "why_tests_cant": "The statement relates the whole contents of arbitrarily many files, read in any order, to what is looked up later; a test only sees one set of files.", "anchors": ["src/runner.c:run_analysis", "src/runner.c:parse_all_files_in_list", "src/runner.c:parse_one_file", "src/maps.c:insert_into_decl_map", "src/maps.c:insert_into_ifs_map", "src/template.c:add_template_declarations", "src/parse_functions.c:insert_interface_call", "src/parse_functions.c:insert_declaration"]}
{"id": "C74", "title": "Findings are about statements in the policy text, and no statement is missed", "statement": "The nodes of a te or interface file that the checks see are, in order, the statements written in its text, with their lines; the only ones left out are calls of templates that cannot be expanded (a chain of calls meets a template twice, or a declared name has a $ without number), and what excepts a node from a check is a command written in the file. Every line of an fc file that is not ignored has its node. So each finding of a check that looks only at what a node says has a statement or fc line in the text, at the line of the finding, in which the check finds just this; and if a selected check of this kind finds something in a statement of a checked file, it is printed, unless the statement calls such a template or a command in the file excepts something from the check. In particular: E-002 is reported exactly for the lines of the checked fc files that are not ignored and do not parse; E-003, E-004 and E-005 exactly for the entries whose user, role or type is not known; a type that a read file declares is never called nonexistent, one that no file introduces always; W-010 is only reported for a call of a name that no file defines, and every such call with a module prefix is reported.", "quantifier": "every option list, every list of paths, every content of the file system, every configuration, all texts, every check of the 21 that depend only on the data of a node, every statement and every fc line", "why_tests_cant": "The completeness half ranges over every statement of every policy; a test shows that particular statements are found, not that none is skipped.", "anchors": ["src/main.c:main", "src/runner.c:run_analysis", "src/runner.c:parse_one_file", "src/parse_functions.c:insert_interface_call", "src/parse_functions.c:save_command", "src/parse_fc.c:parse_fc_file", "src/te_checks.c:check_unknown_interface_call", "src/fc_checks.c:check_file_context_types_exist", "src/fc_checks.c:check_file_context_error_nodes"]}
{"id": "C75", "title": "The words of a rule are the words of its node", "statement": "A list of names in the tree consists of the words written in it, in order: a dash belongs to the word behind it, '~' and '*' are elements, braces are not. Extended permissions, MLS ranges and the arguments of calls hold their words in the same way, and an argument is marked when it follows another one without a comma. The nodes of rules (access vector rules and their extended forms, role allow rules, type, range and role transitions, attribute assignments, typealias and permissive statements) in the tree of an accepted te or interface file are, in the same order, the rules in its text: from each word that begins a rule to the next semicolon, in the line of that word, with the sources, targets, classes, permissions and names that can be read off these words; none is missing and none is made up, however deep it stands in blocks. So a finding of a check that looks only at rules is about a rule in the text of the file in the reported line, and what a selected check finds in a rule of a checked file is reported in its line unless a command of the file names the check. In particular C-007 is reported only for rules that name a known type as their one source and their one target, and for every such rule.", "quantifier": "every list, argument list and range; every text of a te or interface file; every run: options, paths, file system, configuration", "why_tests_cant": "The correspondence is between all rules of arbitrary texts, at any depth of nesting and for lists of any length, and the nodes of the tree; a test compares single rules.", "anchors": ["src/parse.y:rule", "src/parse.y:string_list", "src/parse.y:xperm_list", "src/parse.y:args", "src/parse.y:mls_range", "src/parse_functions.c:insert_av_rule", "src/parse_functions.c:insert_type_transition", "src/string_list.c:concat_string_lists", "src/te_checks.c:check_no_self"]}
{"id": "C76", "title": "The tables at the start of a run hold what the configuration, the kernel or the support files say, and nothing else", "statement": "Before any policy file is parsed the tables hold, in this order: the assumed users and roles of the configuration in effect (system_u and object_r without one), the layers of the interface files found, and then either, with -s or a context path, the classes and permissions of the access vector file, the entries of modules.conf and the permission sets of obj_perm_sets.spt, or, without, the classes and permissions of the running kernel and the layers of the development headers; and nothing else. So a class or permission is known exactly if the access vector file defines it or the kernel has it; a module's status is its first entry; a permission set is known if it is not deprecated and its name ends in _perms; without -s no module and no set is known and E-007 never runs; no type, attribute, boolean, interface or template is known. For a whole run: exactly the interfaces that a policy file defines are known in the end; a type in an fc entry that no policy file introduces is always reported (E-005); a call with a module prefix to a name that no policy file defines is always reported (W-010); an E-008 finding is about a rule in the text with a class that neither the system has nor a policy file declares, and every rule with a class that the system does not have and no file introduces is reported; in the same way E-007 is reported for access vector rules with a permission that neither the access vector file nor the permission sets have, and for every such permission that no policy file introduces and that is no generated name all_..._perms.", "quantifier": "every option list, list of paths, configuration, file system (depth of directories unbounded), kernel class tree, access vector file, modules.conf and permission set file that is well formed; every name", "why_tests_cant": "'Nothing else is known' is about all names and all machines; the walk over the kernel's class tree and the directories has no bound on depth; a test sees one machine.", "anchors": ["src/startup.c:load_access_vectors_kernel", "src/startup.c:load_access_vectors_source", "src/startup.c:load_modules_source", "src/startup.c:load_obj_perm_sets_source", "src/startup.c:load_devel_headers", "src/main.c:main", "src/selint_config.c:insert_config_declarations", "src/te_checks.c:check_unknown_class", "src/te_checks.c:check_unknown_permission"]}
{"id": "C77", "title": "What a finding says about the surroundings of a statement is true of the text", "statement": "The checks that look at what stands around a statement (C-006, S-001, S-004, S-005, W-001, W-002, W-005, W-011, and the check for stray words) find the same at a node of the tree and at its place in the text: for every finding they print, the text of a checked te or interface file has a place, in the reported line, with blocks around it and statements before and behind it, at which the check finds just this; and what a selected check of this kind finds at a place of the text of a checked file is printed with the line of the place, unless the statement is itself a call of a template that cannot be expanded or a command in the file names the check. So W-005 is reported exactly for calls with no optional block around them in the text, to an interface whose first defining interface file belongs to another module for which modules.conf has a first entry other than base; W-001 for statements of te files that use a type, attribute or role attribute of another module which no require block in scope in the text lists; W-002 for statements in definitions that use a symbol no require block before them in the definition mentions; S-004 for calls of templates in interfaces; S-005 for declarations directly in interfaces; W-011 for declarations in require blocks of symbols that are not the module's own.", "quantifier": "every text of te and interface files, every place in it at any depth, every run: options, paths, file system, configuration, module configuration", "why_tests_cant": "Calls that cannot be expanded are missing from the tree, and the claim is that this never changes what is found at any other place, whatever stands there and however deep; a test looks at single files.", "anchors": ["src/parse_functions.c:insert_interface_call", "src/te_checks.c:check_module_if_call_in_optional", "src/te_checks.c:check_no_explicit_declaration", "src/te_checks.c:has_require", "src/if_checks.c:check_name_used_but_not_required_in_if", "src/if_checks.c:check_if_calls_template", "src/if_checks.c:check_decl_in_if", "src/if_checks.c:check_required_declaration_own", "src/tree.c:is_in_require", "src/maps.c:look_up_in_ifs_map", "src/maps.c:look_up_in_mods_map"]}
{"id": "C78", "title": "What a command line means", "statement": "The options and paths the program acts on are those its arguments mean by the usual conventions: letters after one dash, several in one word, the last one possibly with an attached or a following argument; names after two dashes, which may be cut short as long as only one name begins that way, with an argument after an equals sign or following; two dashes end the options; everything else is a path, and the paths keep their order. Arguments have at most one meaning, every combination of options and paths can be written, and with arguments that have no meaning (an unknown letter, an unknown or ambiguous name, a missing or an unwanted argument) nothing is checked and the status is 64, unless help or the version was asked for before. The long option --modules-conf takes an argument and the letter -m does not.", "quantifier": "all argument vectors, of any length, with any words", "why_tests_cant": "Argument vectors are unbounded lists of arbitrary words; the tests run a handful of fixed command lines, none of which has clustered letters, shortened names or arguments that look like options.", "anchors": ["src/main.c:main", "src/main.c:usage"]}
{"id": "C79", "title": "The checks complain exactly about what their catalogue says", "statement": "There is a catalogue that says, for 26 of the documented checks (C-004 to C-007, S-001, S-003 to S-006, S-008, S-009, W-001 to W-003, W-005 to W-011, E-006 to E-010), in terms of the statement, the blocks around it and what is known of names, what the check complains about and in which words. At every place of the text of a te or interface file each of these checks finds exactly what the catalogue lists under its number (one of the entries if several apply). Every finding of such a check that a run prints is an entry of the catalogue about a place in the text of a checked file in the line of the finding, and whatever the catalogue has against a place of a checked file is printed if the check is selected, unless a command excepts it or the place is a call of a template that cannot be expanded (for C-004, W-003 and E-009: unless the file has such a call).", "quantifier": "all machines, command lines and policies, all checked files and places in their texts, all rows of the check table of the catalogue", "why_tests_cant": "The tests call single checks on a few hand-built nodes; that a whole run prints these complaints and no others about arbitrary texts ranges over all policies, tables and places.", "anchors": ["src/te_checks.c", "src/if_checks.c", "src/check_hooks.c:call_checks", "src/runner.c:run_checks_on_one_file"]}
{"id": "C80", "title": "String lists are copied, joined, searched and freed correctly in memory", "statement": "For every list of strings built of cells in memory: searching it finds out whether the string is an element; copying it gives a second list with the same strings and marks that shares no object with the first, which stays as it was; joining two disjoint lists gives one list with the strings of both and allocates nothing; appending a string adds a copy of it at the end (to no list: makes one of it); making a list of a string, of the first bytes of a string or of several strings gives these strings in order; freeing a list frees each of its cells and strings exactly once and nothing else, after which it must not be used again. Joining a list with itself makes it circular: it is then no list, and freeing it is fatal.", "quantifier": "all memories, all lists of strings of any length in them", "why_tests_cant": "Aliasing, leaks and double frees depend on the whole memory; the tests build a few short lists and look at some fields, and a leak or shared cell is invisible to their assertions.", "anchors": ["src/string_list.c:str_in_sl", "src/string_list.c:copy_string_list", "src/string_list.c:sl_from_str", "src/string_list.c:sl_from_strn", "src/string_list.c:sl_from_str_consume", "src/string_list.c:sl_from_strs", "src/string_list.c:concat_string_lists", "src/string_list.c:append_to_sl", "src/string_list.c:free_string_list"]}
{"id": "C81", "title": "Freeing a tree or a list of files frees each of its objects once and nothing else", "statement": "For every tree of nodes in memory, with whatever data its nodes have, freeing its root frees the root, the nodes after it, everything below them, their data with all strings and lists in it and their exceptions, each exactly once, and leaves everything else as it was; if only the tree was allocated nothing is left. A freed tree must not be freed again. Freeing a list of declarations also frees the declarations; freeing a list of calls frees only its cells, so the tree can be freed afterwards. Freeing a list of files frees the names, trees and cells of all its files and its header. Adding a file to a list puts it at the end, and searching a list for a name finds out whether a file has it.", "quantifier": "all memories, all trees of any size and depth with any node data, all lists of files", "why_tests_cant": "Double frees and leaks depend on the kind of every node and on sharing between any two objects of a tree of unbounded size; tests free a few trees and cannot see a leak.", "anchors": ["src/tree.c:free_policy_node", "src/tree.c:free_decl_list", "src/tree.c:free_if_call_list", "src/file_list.c:free_file_list", "src/file_list.c:file_list_push_back", "src/file_list.c:make_policy_file", "src/file_list.c:file_name_in_file_list"]}
{"id": "C82", "title": "The names of a node are collected into a list of their own", "statement": "The functions that collect the names in a node, or in the nodes of a require block, return a new list that shares no object with the tree and leave the tree and everything else as it was; the list consists of the names the checks compute with, and freeing it brings memory back to where it was. They are fatal exactly for an allow rule for roles without a first role and for an alias or permissive line without a name; no text is read to such a node.", "quantifier": "all memories, all trees in them, all nodes with any data; all texts of te and interface files", "why_tests_cant": "Whether the result shares a string with the tree, and whether a node of every kind is handled without a null pointer, ranges over all kinds of nodes and data; the tests call the function on four nodes.", "anchors": ["src/tree.c:get_names_in_node", "src/tree.c:get_names_required"]}
{"id": "C83", "title": "What C-001 demands of two lines, and what it says", "statement": "C-001 puts every line of a te file into a section (anywhere, the declarations, or the section of a name) and, within a section, into a subsection. Of two lines of the file the first may not stand before the second exactly if: it is in a section of a name and the second is a declaration; or both are in sections of different names and the name of the second comes first both by the average line number of its section and by the alphabet; or both are declarations and the second is a boolean or an attribute and must come before the first; or both are in the same section and the subsection of the second comes first; or both are interface calls of one subsection that are ordered by module, and the module of the second comes first; or both are optional blocks for which this holds of their first lines. No kept line stands wrongly before the next kept one. A line that is not kept is reported with the nearest kept line it is misplaced with, its own subsection, the reason and the sections of both, word for word.", "quantifier": "all te files, all maps, all order configurations, all pairs of lines, all numbers of lines", "why_tests_cant": "The comparison is a decision over the kinds of two lines, their position in nested blocks, the maps filled from all other files, and averages computed in floating point over the whole file; tests compare a few dozen pairs.", "anchors": ["src/ordering.c:get_section", "src/ordering.c:get_local_subsection", "src/ordering.c:compare_nodes_refpolicy_generic", "src/ordering.c:get_avg_line_by_name", "src/ordering.c:get_ordering_reason", "src/te_checks.c:check_te_order"]}
{"id": "C84", "title": "The lines kept for error messages, and what a syntax error shows", "statement": "The scanner reads a file line by line and keeps the latest five lines for error messages. However it asks for characters, no line is read that is not there, the characters are handed out in order and completely, and the end is signalled exactly when everything has been handed out. Reading line by line gives the tokens of the whole text; when a token is returned exactly the lines up to its own have been read. A syntax error shows the lines of its location (the last five of them, with a note if there are more), with their numbers, tabs as four blanks and a marker below. At a token on any line but the first the marker stands exactly below the token; on the first line it begins one column too far to the left unless only tabs come before. If lines beyond the location have been read, the texts shown are those of the later lines; in particular an error at the end of a file without a final newline shows an empty line with the number of the last one. At a character that cannot be shown the output ends with a warning that names its position and value; the value of bytes from 0x80 on is printed with six f in front.", "quantifier": "all texts, all sizes of the scanner's requests, all numbers of calls, all tokens, all locations, all lengths of lines", "why_tests_cant": "The ring of five buffers, the partial hand-outs and the look-ahead of the parser interact: whether the right line is shown depends on how far the scanner has read when the error is reported, which tests with short files and an error at a token do not vary.", "anchors": ["src/lex.l:YY_INPUT", "src/lex.l:YY_USER_ACTION", "src/lex.l:reset_current_lines", "src/parse.y:yyerror", "src/parse.y:leading_spaces", "src/util.c:trim_right"]}
{"id": "C85", "title": "Who owns the memory while a file is parsed", "statement": "While a file that the grammar accepts (and whose kind is the expected one) is parsed, with every semantic action and every function it calls working on allocated strings, lists, data and nodes, no freed or missing object is read, written or freed. At the end memory holds, besides what was there before and is unchanged, exactly: the tree, which is the tree of the functional model; one string for each selint-disable command that a later one for the same statement replaced; and one list for each definition of a permission macro, those that the table keeps and those whose name was already there. Nothing is shared between them, and freeing the tree leaves exactly the lost strings and the lists. So a file without macro definitions whose commands are for different statements leaves memory as it was, and a replaced command leaves a string that nothing points to.", "quantifier": "all derivations of the grammar, all contents of the tables, all contents of memory beforehand", "why_tests_cant": "A leak or a double free in one action shows only for inputs that reach the action in that context; whether ownership is right for every nesting of blocks, lists and commands is a claim about all derivations, and a leak does not change the output.", "anchors": ["src/parse.y", "src/parse_functions.c", "src/string_list.c", "src/tree.c:free_policy_node", "src/maps.c:insert_into_permmacros_map", "src/perm_macro.c"]}
{"id": "C86", "title": "Who owns the memory while a file context file is read", "statement": "While a file context file whose lines the parser handles without reading past its buffer is read, with entries, contexts, their strings, the copy of the line, the line buffer and the nodes as allocated objects, no freed or missing object is read, written or freed. At the end memory holds, besides what was there before and is unchanged, exactly the list of nodes of the functional model and strings that nothing points to, at most one for each entry whose context is written with gen_context; nothing else (no copy of a line, no buffer, no part of a bad line) is left. Freeing the list leaves exactly the lost strings; a file without gen_context leaves memory as it was. The bound is attained: a range written inside of gen_context is lost.", "quantifier": "all lists of input lines on which the line parser stays inside of its buffer, all lists of macros, all contents of memory beforehand", "why_tests_cant": "A bad line can be given up at a dozen places, each with another part of the entry built; whether each of them frees exactly what is there is a claim about all lines, and a leak does not change the output.", "anchors": ["src/parse_fc.c:parse_fc_line", "src/parse_fc.c:parse_context", "src/parse_fc.c:parse_fc_file", "src/tree.c:free_fc_entry", "src/tree.c:free_sel_context", "src/tree.c:insert_policy_node_next"]}
{"id": "C87", "title": "The symbol tables in memory", "statement": "Whatever functions of maps.c that add to the symbol tables are called, with whatever names and in whatever order, beginning with empty tables: with elements, keys, values, lists of declarations, calls and permissions as allocated objects, nothing that is not allocated is read, written or freed, the tables in memory hold exactly what the functional tables hold, and everything allocated belongs to exactly one element, except the lists of permissions handed over for a macro whose name was in the table already. Looking up a declaration, a module, a layer, an interface, a mark, a macro or a template gives what the functional tables give. The tables stay intact when trees are freed, although templates point to calls in trees. free_all_maps frees every object of the tables once and nothing else and leaves empty tables; so if no macro is defined twice memory is as it was before, and otherwise exactly the lists of the later definitions are left.", "quantifier": "all sequences of calls of the inserting functions of maps.c, all names and values, all memories to begin with; all names looked up", "why_tests_cant": "Tests call each function on a few names and cannot see a double free that needs a particular history, nor prove the absence of leaks; the leaked list of a macro defined twice changes no output.", "anchors": ["src/maps.c: insert_into_decl_map, insert_into_mods_map, insert_into_mod_layers_map, insert_into_ifs_map, mark_transform_if, mark_filetrans_if, mark_role_if, insert_into_template_map, insert_decl, insert_call, insert_into_permmacros_map, look_up_in_*, free_all_maps"]}
{"id": "C88", "title": "The lists of checks, of permission macros and of sections in memory", "statement": "With every element and string of the linked lists of check_hooks.c, perm_macro.c and ordering.c as an allocated object: registering any checks, running them on any nodes and freeing them reads, writes and frees only what is allocated, gives the findings, the counters and the state of the functional model, allocates nothing that stays (each result and its message are freed), changes nothing but the counters, and at the end memory is as it was. Loading any permission macros gives the seven lists of the functional model, in their order, and free_permmacros gives all of them back, once. The sections collected for the ordering check are those of the functional model and free_ordering_metadata gives all of them back; only if a line has no section does prepare_ordering_metadata lose what it collected, namely everything but the first element, and no line of a parsed te file is without a section.", "quantifier": "all sequences of registered checks, all check functions, all sequences of nodes; all lists of macros; all files whose line numbers are below 2^32; all memories to begin with", "why_tests_cant": "Sorted insertion and appending relink pointers in ways that depend on the whole history, and a leaked or twice freed element changes no output; tests run a few lists of a few elements.", "anchors": ["src/check_hooks.c: add_check, call_checks, call_checks_for_node_type, make_check_result, free_check_result, free_checks, free_check_node", "src/perm_macro.c: load_permission_macro, free_permmacros", "src/ordering.c: prepare_ordering_metadata, add_section_info, free_ordering_metadata, free_section_data"]}
{"id": "C89", "title": "Template expansion in memory", "statement": "With the lists of arguments, the list of the enclosing templates' names and the symbol tables as allocated objects, expanding any template for any call ends with the same error code and the same tables as the expansion on values, and reads, writes and frees only what is allocated; the calls in the trees, the arguments and everything else in memory are unchanged. If it succeeds or a template is met inside itself, nothing is left but the new entries of the tables: every list of substituted arguments, every substituted name and the list of enclosing templates is freed exactly once, including when the loop is found at any depth. If the declaration of some template on the way cannot be written out, exactly the names of the templates enclosing that one are lost, two objects for each; none when it is the called template's own declaration.", "quantifier": "all tables, all nestings of template calls of any depth, all names, arguments and modules, for which the expansion on values is defined; all memories to begin with", "why_tests_cant": "Which function frees the list of enclosing templates depends on where and why a nested expansion stops; a double free or leak at depth k needs templates nested k deep with a fault at the innermost one, and changes no output.", "anchors": ["src/template.c: replace_m4, replace_m4_list, add_template_declarations", "src/maps.c: look_up_decl_in_template_map, look_up_call_in_template_map, insert_into_decl_map", "src/string_list.c: free_string_list"]}
{"id": "C90", "title": "Memory while a file is parsed, correct or not", "statement": "Whatever tokens come and whatever the parser does with them - shift, or reduce any production whose right-hand side is on the stack, running its action - no action reads, writes or frees anything that is not allocated, unless it is an interface call whose expansion is itself undefined. At every moment the tree, the semantic values on the stack and of the token read, the strings of commands that were replaced and the lists of permissions own all that has been allocated, without overlap. If the parser gives up at any moment, or an action comes to YYERROR, running the destructors and freeing the tree is not undefined, and what is left is: the strings of commands that were lost before, the strings of SELINT_COMMAND and maybe_string_comma (which have no %destructor), the lists of permissions, and the interface's name if it was start_interface that failed. So a rejected file without commands that defines no permissions and breaks off outside gen_user leaves memory as it was; each of the exceptions does occur.", "quantifier": "all sequences of tokens, all sequences of moves over all productions of parse.y, all expected kinds of file, all tables and all memories to begin with", "why_tests_cant": "Every one of some 280 productions can be interrupted after any prefix by any token; a value freed twice or not at all on such a path changes no output, and the wrong path needs the right broken file.", "anchors": ["src/parse.y: all productions and actions, %destructor, yyparse_wrapper", "src/parse_functions.c"]}
{"id": "C91", "title": "The scanner reads exactly the tokens of the language", "statement": "For every text, the scanner reads at each place exactly the token (or skips exactly the text) that a description of the language's tokens - reserved words, version numbers, numbers, names, words that begin with a digit, IPv4 and IPv6 addresses, quoted strings, file type specifiers, punctuation, selint-disable comments, comments, m4 comments, blanks - determines by two rules: the reading that goes furthest wins (the newline behind a comment counts), and among equally long ones the kind that comes first. So a file is turned into one sequence of tokens with lines, and the description says which.", "quantifier": "all texts of any length, all places in them", "why_tests_cant": "What is read at a place depends on everything that could be read there; 88 rules overlap (a number, a version, an address and a word can begin alike), and a wrong repetition count or character class shows only on texts nobody wrote down.", "anchors": ["src/lex.l: rules, lines 96-183"]}
{"id": "C92", "title": "The parser can read every file of the grammar", "statement": "For every derivation of a file - of any kind, length and nesting - that the model of the parser's actions accepts, bison's stack machine has a sequence of moves over the productions of parse.y, with their actions and mid-rule actions on memory, that reads exactly the tokens of the derivation and ends with the file accepted. The tree then in memory is the one the model of the actions builds, the tables are the same, and what has been allocated besides is accounted for.", "quantifier": "all derivations of te, if, spt and access vector files, all tables, modules and all memories to begin with", "why_tests_cant": "The productions as bison has them (left and right recursion, mid-rule actions that look below the top of the stack by $-numbers) and the actions as functions are two programs of several hundred cases; a wrong $-number or a production left out shows only for files that use it.", "anchors": ["src/parse.y: all productions and actions, yyparse_wrapper", "src/parse_functions.c"]}
{"id": "C93", "title": "Whatever the parser accepts is a file of the grammar, and the tree is the one it describes", "statement": "For every sequence of tokens and every sequence of moves that bison's stack machine can make over the productions of parse.y - whichever tables bison computes, however it resolves conflicts - if the machine accepts, then the tokens have a derivation in the grammar that the model of the actions accepts, and the tree in memory, the tables, the module's name and the parser's variables are exactly those that the model of the actions computes from this derivation. With C92: the tokens that can be accepted are exactly those that have such a derivation.", "quantifier": "all sequences of tokens, all sequences of moves, all kinds of files, tables, modules and memories to begin with", "why_tests_cant": "An action runs in the middle of a file whose rest is not known yet, on values that it finds by position below the top of the stack; that nothing but a file of the grammar is ever accepted and that the effects add up to the tree of that file is a statement about all runs, not about the runs on files that were written down.", "anchors": ["src/parse.y: all productions and actions, yyparse_wrapper", "src/parse_functions.c"]}
{"id": "C94", "title": "The tree that the parser builds, line numbers included, depends on the text only", "statement": "For every text and every sequence of moves that bison's stack machine can make on its tokens, with the locations that bison's default rule computes (the first line of the first symbol of a production, or the last line of the symbol before for an action in the middle of one): if the machine accepts, then the tree in memory - every node's line number included - the tables, the module's name and the parser's variables are those of the derivation that the functional parser finds for these tokens. So for given tokens there is one tree for all ways to accept them, whatever tables bison computes and however it resolves the conflicts of the grammar; and nothing is accepted that the functional parser rejects.", "quantifier": "all texts, all sequences of tokens and lines, all sequences of moves, all kinds of files, tables, modules and memories to begin with", "why_tests_cant": "parse.y is ambiguous (conditions) and its actions run in the middle of productions, where the line is that of the previous token; that no conflict and no such line ever shows in the tree is a statement about every way to parse every file.", "anchors": ["src/parse.y: all productions and actions, yyparse_wrapper", "src/lex.l: YY_USER_ACTION", "src/parse_functions.c"]}
{"id": "C95", "title": "The LALR(1) parser accepts exactly the files of the grammar", "statement": "yyparse, driven by the LALR(1) tables of parse.y with the precedences that it declares (one action per state and token: shift, reduce, accept or error), accepts a sequence of tokens if and only if it has a derivation whose semantic actions succeed; the tree in memory, line numbers included, the tables, the module's name and the parser's variables are then those that the functional parser finds. In particular no conflict of the grammar was resolved in a way that makes a file of the grammar a syntax error, and what yyparse does on given tokens is determined.", "quantifier": "all sequences of tokens with their lines, all kinds of files, tables, modules and memories to begin with", "why_tests_cant": "The tables have 591 states; whether a state lacks a reduction or a lookahead set a token shows only on a file that happens to come there, and there are infinitely many. Precedence declarations that silence a conflict can also silence a part of the language.", "anchors": ["src/parse.y: %left/%right/%precedence, all productions, yyparse_wrapper", "src/Makefile.am: AM_YFLAGS"]}
{"id": "C96", "title": "The parser comes to an end on every input, in linear time, and gives up only for two reasons", "statement": "On every sequence of n tokens yyparse, driven by its LALR(1) tables with their default reductions, makes at most 54 n + 40 rounds (reading, shifting or reducing). It then has accepted, and the tokens have a derivation whose actions succeed; or it has given up, and there is no such derivation: then either the tables have no entry for the token that was read or a semantic action came to YYERROR - never because the right-hand side of a production is not on the stack or because a state has no successor for a nonterminal - and giving up (destructors, freeing the tree) is defined; or it has done something undefined, which happens only when a call of an interface cannot be expanded.", "quantifier": "all sequences of tokens with their lines, correct or not, all kinds of files, tables, modules and memories to begin with", "why_tests_cant": "Default reductions run before a syntax error is noticed, empty productions push symbols without consuming input, and the actions in the middle of productions address the stack below the production; that none of this loops or underflows on any malformed file is a statement about all stacks.", "anchors": ["src/parse.y: all productions, mid-rule actions, bare_line: error, yyparse_wrapper"]}
{"id": "C97", "title": "A syntax error is found exactly where the text stops being the beginning of a file", "statement": "The grammar of parse.y, without its actions, describes a language. When yyparse finds that its tables have no entry for the token it has read, then the tokens before that one are the beginning of some file of this language, no file of the language begins with them followed by that token (or, at the end of the text, consists of just them), the line of the lookahead is that token's own, and exactly the tokens behind it are unread; there is only one such place in a text. In a text of the language this never happens, a text that yyparse accepts is in the language, and a text that is not in it is rejected at that place unless an action comes to YYERROR (or a call cannot be expanded) before.", "quantifier": "all sequences of tokens with their lines, all kinds of files, tables, modules and memories to begin with; all completions of all beginnings", "why_tests_cant": "That nothing could follow quantifies over all files that begin in the same way, and with default reductions the parser reduces on before it notices the error; only a proof over all states of the automaton shows that it never shifts past the place or reports it early.", "anchors": ["src/parse.y: all productions, yyerror, bare_line: error"]}
{"id": "C98", "title": "What is said about a syntax error is true", "statement": "The first message about a syntax error carries the line and the kind of the token at the place of C97's error. Every token it names as expected may really come there: some file of the grammar goes on with it. It names at most four tokens, none twice, and names none only if more than four may come; it need not name all of them (in tests/functional/policies/parse_errors/test2.te only the end of the text is named although policy_module may come). There is at most one further message, 'Error: Invalid statement', also after an action has come to YYERROR; its line is that of a token not behind the error, at which any statement of the grammar might have begun.", "quantifier": "all sequences of tokens with their lines, all kinds of files, tables, modules and memories to begin with, all names that bison gives to the end of the text", "why_tests_cant": "The tokens named come from the row of the state that default reductions have led to, which may belong to many texts; whether a named token is possible quantifies over all ways to complete the text. The line of the second message is that of whatever symbol happens to be taken off the stack last, and empty symbols have the line of what is before them.", "anchors": ["src/parse.y: %define parse.error verbose, bare_line: error, yyerror, all productions", "tests/functional/policies/parse_errors"]}
{"id": "C99", "title": "The average line of a section", "statement": "C-001 orders the sections of a file by the average line of their statements, computed in single precision from a 32 bit sum. The average is the quotient of the sum modulo 2^32 and the number of lines, each step rounded as IEEE 754 prescribes (to the nearest number, ties to even; there is only one such number). If the line numbers of a section add up to less than 2^24, the average is the mean line correctly rounded; then of two lines about different types the first is reported as misplaced only if its type comes later both in the alphabet and by mean line, and it is misplaced whenever it comes later in the alphabet and its mean is larger by one part in 2^22 or more. With sums of 2^32 and more this is false: lines may have a smaller average than lines that all stand before them.", "quantifier": "all quotients of natural numbers; all non-empty lists of line numbers; all files, all pairs of lines in them and all contents of the tables", "why_tests_cant": "Rounding errors and a wrapped sum show only for particular large values, and a wrong rounding of a tie changes the order of two sections once in millions of files.", "anchors": ["src/ordering.c: calculate_average_lines, get_avg_line_by_name, add_section_info, compare_nodes_refpolicy_generic", "src/ordering.h: struct section_data"]}
{"id": "C100", "title": "What is printed about a syntax error shows the place of the error", "statement": "When the parser meets a token that it has no entry for, everything it prints is this: yyerror called with the location of the token at the place of C97's error and the lines kept when it was read, and the message of C98; then, unless there is no statement around it, yyerror called with a location that begins with a token not behind the error, where any statement may begin, and ends where the first one ends. No line is shown that was never read. If the token is not on the first line and all lines can be shown, the first picture is its own line with a marker exactly below the token, and the second one consists of the lines of the text from the other token on (the last five, with a note, if there are more). At the end of a text that ends with a newline the empty line behind it is shown. If the text ends without a newline, other lines are shown than those named.", "quantifier": "all texts, all kinds of files, tables, modules and memories to begin with, all file names, with and without colours", "why_tests_cant": "The locations on the parser's stack are combined by every reduction and the lines come from a ring buffer that the scanner overwrites while it reads ahead; whether they fit together at the moment of an error depends on the whole text before it.", "anchors": ["src/parse.y: yyerror, bare_line: error, YYLTYPE, all productions", "src/lex.l: YY_USER_ACTION, YY_INPUT, current_lines", "tests/functional/policies/parse_errors"]}
{"id": "C101", "title": "The parser's stack is large enough", "statement": "bison's stack holds at most 10000 states; when it is full the parser stops with \"memory exhausted\". How high the stack gets can be read off the tokens shifted so far: at most 21, plus 11 for every bracket or quote that is open and for every ! or ~ since the last comma, semicolon or opening quote, plus one for every comment if there were only comments so far, plus one for every word of the quoted text of define or refpolicywarn that is not finished. If that is below 10000 everywhere in a text (as in every text of 831 tokens or less), the limit makes no difference: the parser goes through the same steps and accepts exactly the files of the grammar. Nothing is ever accepted because of the limit. It is not true that every file of the grammar is accepted: one that begins with 9999 comments is not, nor is one with a refpolicywarn of 9996 words or a define with a text of 9993 words, wherever it stands.", "quantifier": "all sequences of tokens, all kinds of files, tables, modules and memories to begin with", "why_tests_cant": "The height of the stack depends on the recursion of every production in every state of the automaton; test files are far too short to come near the limit.", "anchors": ["src/parse.y: all productions, comments, arbitrary_m4_string (no YYMAXDEPTH), yyparse_wrapper"]}
{"id": "C102", "title": "What is printed when the parser refuses a text that is right by the grammar", "statement": "Whenever the parser gives up on a text, a message is printed, and it is either that of a syntax error (C100) or one of these: a header, a definition of an interface, a definition of a macro or a class with access vectors is in a file of another kind than the one expected, or a rule other than allow lacks class and permissions. A text that is right by the grammar is only refused for one of the latter reasons. Then the message says which kind of file the part belongs to (or that the rule is incomplete) and its location runs from the first token of that part to its last one; an incomplete rule, and nothing else, is also called an invalid statement, with the same location. If the part does not begin on the first line and all lines can be shown, exactly the lines of the part are shown as they are in the text (the last five, with a note, if there are more), because the parser has not read further; the one exception is a class that inherits and has no permissions of its own, where it has read the next token, so that other lines are shown than those named.", "quantifier": "all texts, all kinds of files, tables, modules and memories to begin with, all file names, with and without colours", "why_tests_cant": "Which lines are kept when an action runs depends on whether bison has read a token ahead, which depends on the state of the automaton and on the reductions before; tests show single texts.", "anchors": ["src/parse.y: header, role_allow, start_interface, support_def, av_class_definition, bare_line: error, yyerror", "src/lex.l: YY_USER_ACTION, YY_INPUT", "tests/functional/policies/parse_errors/test7.if"]}
{"id": "C103", "title": "The help text tells the truth about the options", "statement": "Every option that the help text shows is understood by its name; it takes an argument exactly if one is shown, and the letter shown beside it means the same option. Every letter and every name that is understood is shown, except -m and --modules-conf. As the help text says, --context implies -s and --summary-only implies -S wherever they stand on a command line, --color takes on, off and auto and nothing else, and --level refuses every argument that does not begin with C, S, W, E or F.", "quantifier": "all options shown, all letters, all names, all command lines", "why_tests_cant": "The three lists (text, table of names, string of letters) are kept apart in the source and nothing compares them; absence of an undocumented option is a statement about all letters and names.", "anchors": ["src/main.c: usage, long_options, getopt_long call, option switch"]}
{"id": "C104", "title": "Colours change nothing but colours", "statement": "What is printed with colours for a finding, for the summary, and for a file that cannot be parsed (tag, lines, markers, warning about unprintable characters) is what is printed without colours, with some stretches coloured; after each such stretch the usual colour is restored before anything else is printed. Either both are well defined or neither is. Removing the colours gives the uncoloured text back. Without colours no escape character is printed for a syntax error whatever the file contains, unless the name of the file or the message has one.", "quantifier": "all findings, all lists of hooks, all contents of the kept lines, all locations, messages and parser states", "why_tests_cant": "The colour functions are called at a dozen places; a forgotten reset or a text printed only in one of the two modes shows only on the path where it happens, and tests compare uncoloured output.", "anchors": ["src/color.c", "src/check_hooks.c: display_check_result, display_check_issue_counts", "src/runner.c: display_run_summary", "src/parse.y: yyerror"]}
{"id": "C105", "title": "The program says why it stops before it looks at a file", "statement": "If main exits before it looks at any file, the last thing it prints is a sentence (or the help text) that gives a true reason, and the exit status belongs to that reason: help or version asked for (0), an unknown option, a bad argument of --color or --level, a configuration file named but not readable, -E without -e, no path (64), a configuration that cannot be parsed or has a setting that is refused (78). The sentence about a refused setting names the setting and its value, and that value is indeed not allowed; an accepted configuration is accepted silently. If main goes on, without -v it has printed the note about source mode exactly if source mode is on and -r is not given, and exactly one warning for each id on the command line or in the configuration that is not valid, in order and saying where it stands. Whether the output is a terminal changes only colours, and -v only adds text.", "quantifier": "all command lines, all configuration files as libconfuse delivers them, all states of the file system, all numbers of paths", "why_tests_cant": "There are a dozen exits with a message each, and all combinations of options and settings; tests look at a few exit codes and no texts.", "anchors": ["src/main.c: main (118-370), WARN_ON_INVALID_CHECK_ID", "src/selint_config.c: parse_config", "src/util.c: print_if_verbose", "src/color.c"]}
{"id": "C106", "title": "What cannot be used is reported", "statement": "Without -v and -r, one note is printed for each path on the command line that is not named like a policy file or support file (a directory included), in order, and nothing else, while the other paths are collected; with -r the scan is silent. In source mode each of the three support files is either found and read without error, and then nothing is said, or one warning says that it was not found, or names its path and the number of the error; nothing at all is printed only if all three were read without error. Otherwise there is a note if the kernel offers no classes, a warning if it offers no permission, and nothing if it does. A run that ends with status 70 says so in a line that begins with Error; a run that ends with 0 or 65 prints the summary if asked for and nothing else at the end. Printing does not change what is scanned, and colours change only colours.", "quantifier": "all options, all paths and directory forests (without -r: no directory on the command line named like a policy file), all contents of support files, all states of the tables, all results of the analysis", "why_tests_cant": "A support file that is silently ignored changes the findings and not the exit status; the combinations of missing, unreadable and wrong files are not covered by tests and the texts are not compared.", "anchors": ["src/main.c: main (389-466, 511-616)", "src/startup.c: load_access_vectors_kernel, load_access_vectors_source, load_modules_source, load_obj_perm_sets_source"]}
{"id": "C107", "title": "Silence means that all is well", "statement": "If the program prints nothing, then the exit status is 0, there are no findings, neither -v nor a summary was asked for, every id on the command line and in the configuration is taken for that of a check, directories are searched if source mode is on, without -r every path is named like a policy file or support file, in source mode the three support files were found and read without error, otherwise the kernel offers permissions, and every check that is enabled and not below the level was performed. Conversely, if all of this holds, the status is not 70 and there are no findings, nothing is printed but what parsing the files prints, and that is nothing as well. For each check that is asked for but cannot be performed for lack of data there is exactly one note that says what is missing. The findings are printed as consecutive lines in their order, followed by the summary if it was asked for and by nothing otherwise, or, if the analysis failed, by an error, and then there are no findings. Whether the output is a terminal changes only colours. Apart from what the parser prints, printing is defined exactly if the run is.", "quantifier": "all command lines, configurations, file systems, file contents and kernels for which the run is defined; what parsers print and qsort are parameters", "why_tests_cant": "Silence is the usual outcome of a lint run in CI; that no combination of options and missing data leads to silence by mistake is a statement about every path through the program.", "anchors": ["src/main.c: main", "src/runner.c: register_checks, run_analysis, display_run_summary", "src/te_checks.c: check_unknown_permission_condition, check_unknown_class_condition", "src/check_hooks.c: display_check_result"]}
{"id": "C108", "title": "-v only adds messages", "statement": "Adding -v anywhere among the options changes neither the exit status nor the findings, the issue counts or the check ids that are warned about, and never makes a defined run undefined or the other way round. All that is printed without -v is also printed with it, in the same order.", "quantifier": "all command lines, positions of -v in them, configurations, file systems and file contents; what parsers print is a parameter of which the same is asked", "why_tests_cant": "A message that is replaced rather than added, or a decision that depends on the flag, may sit on any path through the program.", "anchors": ["src/main.c: main", "src/util.c: print_if_verbose", "src/startup.c: load_access_vectors_source", "src/selint_config.c: parse_config"]}
{"id": "C109", "title": "A policy file that cannot be parsed is named", "statement": "While the files of a run are parsed nothing is printed about a te or if file that can be parsed, except its announcement with -v. If the analysis fails because of a te or if file, that file is named: in an error with the reason if it cannot be opened, and otherwise in a finding F-001 that begins what is printed about it. It is the first file of the run, in the order if files, te files, fc files, that cannot be parsed, and the only thing printed after it is the error that the files could not be parsed. About an fc file that cannot be opened nothing is printed but the announcement with -v, so that a run can fail without saying which file was the cause. The same holds in source mode for access_vectors and obj_perm_sets.spt, which are named in a finding F-001 followed by a warning. If the run is defined and all files can be parsed, then what is printed is defined, too.", "quantifier": "all command lines with -r, file systems, file contents with fewer lines than an unsigned int can count, tables and colours", "why_tests_cant": "Errors arise in any of the states of the parser and in any action, with any rest of the text ahead; that each of them is reported before the parser gives up is about all of these.", "anchors": ["src/runner.c: parse_one_file, parse_all_files_in_list, parse_all_fc_files_in_list, run_analysis", "src/parse.y: yyparse_wrapper, yyerror", "src/parse_fc.c: parse_fc_file", "src/main.c: main"]}
