{"claims": [
 {"property": "C01", "status": "proved", "theorems": ["Selint.C01_enable_override", "Selint.C01_command_line", "Selint.C01_findings"], "note": ""},
 {"property": "C02", "status": "proved", "theorems": ["Selint.C02_only_enabled", "Selint.C01_command_line"], "note": ""},
 {"property": "C03", "status": "proved", "theorems": ["Selint.C03_registered", "Selint.C03_invalid_level", "Selint.C03_monotone", "Selint.C03_level", "Selint.C01_findings"], "note": ""},
 {"property": "C04", "status": "partial", "theorems": ["Selint.C04_suppresses_exactly", "Selint.C04_listed_prefix", "Selint.C04_named_only_partial", "Selint.C04_false_in_general"], "note": "Suppression is exact w.r.t. the substring test (C04_suppresses_exactly); listed ids are always suppressed; the converse (only listed ids are suppressed) holds under the hypothesis that every listed word is a canonical id, and is false in general (C04_false_in_general: W-0011 disables W-001)."},
 {"property": "C05", "status": "proved", "theorems": ["Selint.C05_each_check_once_in_order"], "note": ""},
 {"property": "C06", "status": "proved", "theorems": ["Selint.C06_counters"], "note": ""},
 {"property": "C07", "status": "proved", "theorems": ["Selint.C07_comparison", "Selint.C07_summary", "Selint.C07_applies"], "note": ""},
 {"property": "C08", "status": "proved", "theorems": ["Selint.C08_options", "Selint.C08_status", "Selint.C08_early"], "note": "Option parsing, configuration choice and the end of main; the file scan and run_analysis are parameters here."},
 {"property": "C09", "status": "proved", "theorems": ["Selint.C09_traversal", "Selint.C09_walk_is_dfs_next", "Selint.C09_heap"], "note": "On the functional tree and, for every heap holding a well-formed tree, on the heap."},
 {"property": "C10", "status": "proved", "theorems": ["Selint.C10_child", "Selint.C10_next", "Selint.C10_next_links", "Selint.C10_next_drops_successors", "Selint.C10_null", "Selint.C10_parser"], "note": "Heap model of tree.c with undefined behaviour for unallocated access; well-formedness is Spec.Holds. C10_next needs a node without successor (C10_next_drops_successors shows why); C10_parser shows the parser only does that. malloc failure is not modelled."},
 {"property": "C11", "status": "proved", "theorems": ["Selint.C11_free", "Selint.C11_parser"], "note": "Access to a released node is undefined behaviour in the model, so the ok result also says no node is touched after release."},
 {"property": "C12", "status": "proved", "theorems": ["Selint.C12_order", "Selint.C12_tree", "Selint.C12_depth", "Selint.C12_heap", "Selint.C12_shape", "Selint.C12_text"], "note": "C12_order: for every derivation accepted, with every call expandable, the tree (apart from exceptions) is the one the syntax-directed specification fileNodes lists, and parsing ends at top level. C12_tree: the exact tree including exceptions and the calls dropped because the template could not be expanded (insert_interface_call then adds no node). C12_depth: any lines at any place end at the depth they started. C12_heap: the same tree is what the pointer operations leave on the heap. Quantifies over derivations of the grammar; the LALR automaton generated by bison is trusted. C12_shape: every parsed te file meets the shape hypotheses of the ordering theorems. C12_text: the same for texts, without hypotheses on the tokens."},
 {"property": "C13", "status": "proved", "theorems": ["Selint.C13_history", "Selint.C13_require", "Selint.C13_template", "Selint.C13_recorded", "Selint.C13_only"], "note": "for every derivation of an accepted file"},
 {"property": "C14", "status": "proved", "theorems": ["Selint.C14_decl_first_wins", "Selint.C14_count_distinct", "Selint.C14_maps_first_wins", "Selint.C14_marks", "Selint.C14_templates", "Selint.C14_template_call"], "note": "uthash is trusted; every inserting function of maps.h is covered."},
 {"property": "C15", "status": "proved", "theorems": ["Selint.C15_all_symbols_known", "Selint.C16_lists_wellformed", "Selint.C15_check_data"], "note": "All parse events precede all check events; each check sees the tables after all parsing and marking, and the AST its parser produced. Checks receive the tables as a read-only argument in the model (no check function in /repo calls an insert_* map function)."},
 {"property": "C16", "status": "proved", "theorems": ["Selint.C16_context_not_checked", "Selint.C16_lists_wellformed", "Selint.C16_search"], "note": "Checked files are te++ifs++fc; context cells never checked; heap links restored after splice; lists built by push_back meet the hypothesis."},
 {"property": "C17", "status": "proved", "theorems": ["Selint.C17_parse_failure", "Selint.C16_lists_wellformed"], "note": "Failure iff some parse failed; no check events then; cleanup exactly once, last."},
 {"property": "C18", "status": "proved", "theorems": ["Selint.C18_terminates", "Selint.C18_loop_iff", "Selint.C18_false_call_without_args", "Selint.C18_false_star_argument"], "note": "Termination for every table and argument list (recursion depth at most templates+1). A finished expansion reports a loop only if a nested call chain repeats a template, never succeeds if there is one, and reports it exactly if there is one when substitution does not fail. Expansion can also crash: C18_false_call_without_args and C18_false_star_argument exhibit undefined behaviour."},
 {"property": "C19", "status": "proved", "theorems": ["Selint.C19_declares_exactly", "Selint.C19_expansion_unique"], "note": "For tables whose references are $1, $2, ...; Expands is the independent big-step specification; its result is unique."},
 {"property": "C20", "status": "proved", "theorems": ["Selint.C20_substitutes", "Selint.C20_fails_iff", "Selint.C20_result_exists", "Selint.C20_result_unique", "Selint.C20_zero_is_first"], "note": "For references $n with n from 1; $0 is replaced by the first argument (C20_zero_is_first). Runs with undefined behaviour are the subject of C21."},
 {"property": "C21", "status": "partial", "theorems": ["Selint.C21_safe_iff", "Selint.C21_safe_partial", "Selint.C21_false_overflow", "Selint.C21_false_unterminated"], "note": "The property is false: C21_false_overflow (argument referenced twice) and C21_false_unterminated (trailing reference to a missing argument). C21_safe_iff gives the exact condition; C21_safe_partial shows it holds if every argument is referenced at most once and every reference has an argument."},
 {"property": "C22", "status": "proved", "theorems": ["Selint.C22_least_fixpoint", "Selint.C22_terminates", "Selint.C22_order_independent"], "note": "Marking computes the least fixpoint, terminates within its bound, does not depend on file order."},
 {"property": "C23", "status": "proved", "theorems": ["Selint.C23_union", "Selint.C23_unknown_only_uncovered", "Selint.C23_terminates_iff", "Selint.C23_fuel_irrelevant", "Selint.C23_order_irrelevant", "Selint.C23_circular_never_ends"], "note": "Mask = union of bits of expanded entries (raw and extended); order/repetition irrelevant; terminates iff no reachable circular definition; circular definitions never end (finding)."},
 {"property": "C24", "status": "proved", "theorems": ["Selint.C24_suggestion_sound", "Selint.C24_state_ok", "Selint.C24_no_crash", "Selint.C24_special_rule_is_or"], "note": "Any suggestion is an eligible macro and the message lists exactly the replaced entries and added permissions; no crash without circular macros."},
 {"property": "C25", "status": "proved", "theorems": ["Selint.C25_suggestion_best"], "note": "The suggested macro is the last defined of the best eligible ones; suggestion iff it is not in use."},
 {"property": "C26", "status": "proved", "theorems": ["Selint.C26_lists"], "note": "Sorted by count; for every n the elements with n permissions are the macros of the class with n permissions in definition order."},
 {"property": "C27", "status": "proved", "theorems": ["Selint.C27_popcount"], "note": "popcount = number of set bits for all 32-bit masks."},
 {"property": "C28", "status": "proved", "theorems": ["Selint.C28_string_builder"], "note": "No out-of-bounds write, text is the concatenation."},
 {"property": "C29", "status": "proved", "theorems": ["Selint.C29_kept_lines_follow", "Selint.C29_fewest_flags", "Selint.C29_reports", "Selint.C29_inconsistent_comparison_hides_a_misplaced_line"], "note": "calcLis models calculate_longest_increasing_subsequence; C29_reports lifts it to the check on every parsed te file (Spec.TeFile). C29_inconsistent_comparison_hides_a_misplaced_line is a finding: with lines of no section the comparison is not transitive."},
 {"property": "C30", "status": "proved", "theorems": ["Selint.C30_in_bounds_and_terminates", "Selint.C30_empty_is_undefined", "Selint.C30_te_file"], "note": "For every list and comparison; the empty list reads nodes[-1] (C30_empty_is_undefined), excluded in te files by the required header. C30_te_file: the whole check on any parsed te file."},
 {"property": "C31", "status": "proved", "theorems": ["Selint.C31_not_both_rejected", "Selint.C31_te_file"], "note": "For all nodes, variants and section statistics; C31_te_file adds that in a parsed te file both comparisons finish without error."},
 {"property": "C32", "status": "proved", "theorems": ["Selint.C32_outermost_decides", "Selint.C32_subsection"], "note": "is_optional, is_boolean, is_tunable, is_in_ifdef of every node are decided by the outermost conditional among the node and its ancestors; C32_subsection lifts it to get_local_subsection."},
 {"property": "C33", "status": "proved", "theorems": ["Selint.C33_order", "Selint.C33_other_declarations", "Selint.C33_sorted"], "note": "C-005 reports exactly the statements with a misordered pair of neighbouring permissions, and the first such pair; without ~ and - the unreported lists are the strictly sorted ones."},
 {"property": "C34", "status": "partial", "theorems": ["Selint.C34_order", "Selint.C34_accepts", "Selint.C34_empty", "Selint.C34_names_partial", "Selint.C34_internal", "Selint.C34_false_stripped", "Selint.C34_false_repeated"], "note": "Exactly when and what C-006 reports (C34_order, C34_accepts); that between names of equal flavor, neither of which without its final _t is a prefix of the other, the order is that of the names without the final _t (C34_names_partial). The statement as written is false: C34_false_stripped (ssh_t is ordered after ssh2_t: the final _t is not dropped but read as __) and C34_false_repeated (foo_t and foo__bar_t are 'repeated')."},
 {"property": "C35", "status": "partial", "theorems": ["Selint.C35_round_trip_partial", "Selint.C35_false_category", "Selint.C35_plain_keeps_end_of_line", "Selint.C35_plain_last_line", "Selint.C35_false_plain"], "note": "round trip proved for <<none>>, gen_context, levels, and categories that reach as far as the level; false for plain contexts (the newline is kept) and for short categories, with witnesses"},
 {"property": "C36", "status": "partial", "theorems": ["Selint.C36_inside_line_partial", "Selint.C36_tail_ignored", "Selint.C36_category_overrun", "Selint.C36_false_category", "Selint.C36_false_hyphen"], "note": "inside the line for all tame lines; the property is false for a level longer than the category and for a final lone hyphen"},
 {"property": "C37", "status": "proved", "theorems": ["Selint.C37_lines", "Selint.C37_no_file", "Selint.C37_parses"], "note": "node list of a file context file"},
 {"property": "C38", "status": "proved", "theorems": ["Selint.C38_regex", "Selint.C38_escaped_backslash_not_reported"], "note": "exact, position of the first; bracket groups specified inductively"},
 {"property": "C39", "status": "proved", "theorems": ["Selint.C39_declared", "Selint.C39_other_module", "Selint.C39_none_never", "Selint.C39_missing_range", "Selint.C39_error_nodes", "Selint.C39_internal_error", "Selint.C39_note_once"], "note": "E-003/4/5, S-002, S-007, E-002 and <<none>> entries, over histories of declarations"},
 {"property": "C40", "status": "proved", "theorems": ["Selint.C40_explicit", "Selint.C40_other_files"], "note": "W-001: hypothesis that require blocks in scope have children (the parser always enters a start marker)."},
 {"property": "C41", "status": "proved", "theorems": ["Selint.C41_required", "Selint.C41_outside"], "note": ""},
 {"property": "C42", "status": "proved", "theorems": ["Selint.C42_used", "Selint.C42_others"], "note": "Used means: mentioned by a statement after the outermost require block around the declaration, inside the block containing it."},
 {"property": "C43", "status": "proved", "theorems": ["Selint.C43_optional"], "note": "W-005 for every history of insertions and every position of the call."},
 {"property": "C44", "status": "proved", "theorems": ["Selint.C44_accepted_iff", "Selint.C44_transfer", "Selint.C44_assumed", "Selint.C44_told"], "note": "From the option values delivered by libconfuse on."},
 {"property": "C45", "status": "partial", "theorems": ["Selint.C45_entry_partial", "Selint.C45_ignored", "Selint.C45_missing_status", "Selint.C45_second_equals", "Selint.C45_file_partial", "Selint.C45_stops_at_missing_status", "Selint.C45_stops_at_second_equals", "Selint.C45_false_no_spaces", "Selint.C45_false_space_only_after_equals"], "note": "Proved for lines with white space before the = and behind the status, for every content of the buffer behind the line; refuted otherwise: 'name=status' reads and writes outside the buffer (C45_false_no_spaces), 'name= status' is rejected (C45_false_space_only_after_equals)."},
 {"property": "C46", "status": "partial", "theorems": ["Selint.C46_accepts_existing", "Selint.C46_exact", "Selint.C46_false_in_general", "Selint.C46_warned", "Selint.C46_shape_partial"], "note": "Exact characterisation proved. The rejection half of the English statement is false of the code: C46_false_in_general gives accepted strings with trailing text and ids of checks that do not exist. The empty string is an out-of-range read (isValidCheck returns ub)."},
 {"property": "C47", "status": "partial", "theorems": ["Selint.C47_classify", "Selint.C47_recursive", "Selint.C47_nonrecursive", "Selint.C47_context", "Selint.C47_context_disjoint", "Selint.C47_false_for_policy_named_dirs", "Selint.C47_layer", "Selint.C47_path", "Selint.C47_root_name", "Selint.C47_exact", "Selint.C47_selection_partial"], "note": "Proved for directory hierarchies in which no directory is named like a policy or support file; refuted without that hypothesis (C47_false_for_policy_named_dirs). C47_exact says without any hypothesis which files and support files are collected (Spec/ScanExact.lean). The classification and context theorems are unconditional."},
 {"property": "C48", "status": "proved", "theorems": ["Selint.C48_progress", "Selint.C48_total", "Selint.C48_line", "Selint.C48_keyword", "Selint.C48_word", "Selint.C48_unknown", "Selint.C48_unterminated_comment", "Selint.C48_tokens", "Selint.C48_sorted"], "note": "Spec/Lex.lean defines regex texts and the choice of a rule (longest, then first) declaratively; flex is trusted to implement it."},
 {"property": "C49", "status": "proved", "theorems": ["Selint.C49_recognised", "Selint.C49_only", "Selint.C49_exceptions", "Selint.C49_saved"], "note": "Recognition from text to token, and from token to the exceptions of the node. Exactness up to ids that extend another id (see C04)."},
 {"property": "C50", "status": "proved", "theorems": ["Selint.C50_names_exact", "Selint.C50_order", "Selint.C50_required"], "note": ""},
 {"property": "C51", "status": "partial", "theorems": ["Selint.C51_empty_call", "Selint.C51_risky", "Selint.C51_unknown_permission", "Selint.C51_unknown_class", "Selint.C51_empty_block", "Selint.C51_unknown_interface", "Selint.C51_false_permission_parameter", "Selint.C51_permission_partial"], "note": "All six checks characterised exactly; the clause on parameters is false of E-007, which reports a permission given by a parameter (C51_false_permission_parameter)."},
 {"property": "C52", "status": "proved", "theorems": ["Selint.C52_paths_in_bounds"], "note": ""},
 {"property": "C53", "status": "proved", "theorems": ["Selint.C53_message_is_complete"], "note": "For all texts and line numbers below 2^32; C29_reports uses it on the check."},
 {"property": "C54", "status": "proved", "theorems": ["Selint.C54_declarations_first", "Selint.C54_subsections", "Selint.C54_interface_calls", "Selint.C54_rules"], "note": "Against Spec.place / Spec.callPlace, for all lines, tables, statistics and variants."},
 {"property": "C55", "status": "proved", "theorems": ["Selint.C55_self"], "note": ""},
 {"property": "C56", "status": "proved", "theorems": ["Selint.C56_require_block", "Selint.C56_bare_module", "Selint.C56_file_name"], "note": ""},
 {"property": "C57", "status": "proved", "theorems": ["Selint.C57_macro_mismatch"], "note": ""},
 {"property": "C58", "status": "proved", "theorems": ["Selint.C58_suggests"], "note": ""},
 {"property": "C59", "status": "proved", "theorems": ["Selint.C59_unquoted_space"], "note": "The counter of arguments is modelled without wrap-around."},
 {"property": "C60", "status": "proved", "theorems": ["Selint.C60_nameclash", "Selint.C60_stray_word"], "note": ""},
 {"property": "C61", "status": "proved", "theorems": ["Selint.C61_comment", "Selint.C61_calls_template", "Selint.C61_calls_template_outside", "Selint.C61_declaration", "Selint.C61_unquoted"], "note": ""},
 {"property": "C62", "status": "proved", "theorems": ["Selint.C62_own", "Selint.C62_other_files"], "note": ""},
 {"property": "C63", "status": "proved", "theorems": ["Selint.C63_interface", "Selint.C63_others"], "note": ""},
 {"property": "C64", "status": "proved", "theorems": ["Selint.C64_support", "Selint.C64_access_vectors", "Selint.C64_false_kind"], "note": "the quirk C64_false_kind: a file that begins with a common is accepted whatever was expected"},
 {"property": "C65", "status": "proved", "theorems": ["Selint.C65_order", "Selint.C65_first", "Selint.C65_false_ifdef", "Selint.C48_sorted"], "note": "C65_order: for every text and derivation, all nodes carry the line of a token and line numbers never decrease in document order. C65_first: simple statements, optional_policy, gen_require and if carry the line of their first token. C65_false_ifdef: for the blocks whose node is created in a mid-rule action this is false (witness)."},
 {"property": "C66", "status": "proved", "theorems": ["Selint.C66_ids", "Selint.C66_output"], "note": "whole run over any parser results; the hooks are those register_checks installs"},
 {"property": "C67", "status": "proved", "theorems": ["Selint.C67_file", "Selint.C67_run", "Selint.C67_false_reason", "Selint.C67_false_require", "Selint.C67_false_common"], "note": "Run-level theorem over texts; the conditions (acyclic permission macros, te files that are not access vector files) are shown to be needed, and both remaining internal errors are shown to occur."},
 {"property": "C68", "status": "proved", "theorems": ["Selint.C68_sound", "Selint.C68_complete", "Selint.C68_rejected", "Selint.C68_unambiguous", "Selint.C68_unambiguous_text", "Selint.C68_deterministic", "Selint.C68_text", "Selint.C68_false_conditions"], "note": "Sound and complete parser for the derivations; unambiguous up to conditions; two derivations of a text have the same effect. C68_false_conditions shows that the exception is needed."},
 {"property": "C69", "status": "proved", "theorems": ["Selint.C69_readable", "Selint.C69_colours", "Selint.C69_columns", "Selint.C69_id", "Selint.C69_false_colon"], "note": "Full statement; the exclusion of colons in file names is necessary (C69_false_colon)."},
 {"property": "C70", "status": "proved", "theorems": ["Selint.C70_text", "Selint.C70_file", "Selint.C70_run", "Selint.C70_false_twice"], "note": "Text, file and run level. The arities are a parameter: any assignment under which the texts fit will do. The necessity of the condition is proved with a witness (C70_false_twice; see also C18_false_*, C21_false_*)."},
 {"property": "C71", "status": "proved", "theorems": ["Selint.C71_early", "Selint.C71_status", "Selint.C71_summary", "Selint.C71_summary_exact", "Selint.C71_files", "Selint.C71_parse_error", "Selint.C71_defined"], "note": "About selintMain, the model of main with scan, support files, analysis and exit status. C71_parse_error and the list of files it speaks of are for runs with -r on directories not named like policy files (see C47). C71_defined lists the conditions; properties C18, C36, C45, C67 and C70 show which of them are needed."},
 {"property": "C72", "status": "proved", "theorems": ["Selint.C72_files", "Selint.C72_output", "Selint.C72_findings"], "note": "The run on list nodes is reduced to a reading and a report on plain lists of names (Spec/Report.lean). The two checks with memory are covered by C72_output, which threads their state."},
 {"property": "C73", "status": "proved", "theorems": ["Selint.C73_history", "Selint.C73_interfaces", "Selint.C73_templates", "Selint.C73_declared", "Selint.C73_expanded", "Selint.C73_only", "Selint.C73_module"], "note": "The history of the tables in a whole run and what it means for interfaces, templates and declarations."},
 {"property": "C74", "status": "proved", "theorems": ["Selint.C74_order", "Selint.C74_node", "Selint.C74_kept", "Selint.C74_exceptions", "Selint.C74_text", "Selint.C74_statement", "Selint.C74_reported", "Selint.C74_found", "Selint.C74_found_fc", "Selint.C74_fc", "Selint.C74_fc_format", "Selint.C74_fc_users", "Selint.C74_fc_roles", "Selint.C74_fc_types", "Selint.C74_fc_declared", "Selint.C74_fc_undeclared", "Selint.C74_template", "Selint.C74_unknown_reported", "Selint.C74_unknown_found", "Selint.C74_faulty_dropped"], "note": "For every run that is not stopped by a parse error and without --summary-only. The 21 checks of Spec.localChecks are those whose function looks only at the data of the node; the others also look at neighbouring nodes. The exception for calls of faulty templates is the code's behaviour, shown by C74_faulty_dropped: insert_interface_call returns before inserting the node, and the parser ignores the result."},
 {"property": "C75", "status": "proved", "theorems": ["Selint.C75_list", "Selint.C75_xperms", "Selint.C75_range", "Selint.C75_args", "Selint.C75_rules", "Selint.C75_run", "Selint.C75_reported", "Selint.C75_found", "Selint.C75_self_reported", "Selint.C75_self_found"], "note": "Lists, extended permissions, ranges and arguments as functions of their tokens; the rule nodes of a file and of a run equal, in order and with lines, the rules read from the text alone (Spec/Words: rulesIn, readRule); findings of checks on rules in both directions, C-007 worked out. Calls and declarations are not covered by rulesIn; for them see C74."},
 {"property": "C76", "status": "proved", "theorems": ["Selint.C76_source_history", "Selint.C76_kernel_history", "Selint.C76_source_declared", "Selint.C76_kernel_declared", "Selint.C76_source_modules", "Selint.C76_nothing", "Selint.C76_only", "Selint.C76_types", "Selint.C76_kernel_modules", "Selint.C76_unknown_found", "Selint.C76_fc_undeclared", "Selint.C76_interfaces", "Selint.C76_classes", "Selint.C76_class_reported", "Selint.C76_class_found", "Selint.C76_permissions", "Selint.C76_perm_reported", "Selint.C76_perm_found"], "note": "What the tables hold before parsing, exactly, with and without -s; consequences for W-010, E-005, E-007, E-008 over whole runs."},
 {"property": "C77", "status": "proved", "theorems": ["Selint.C77_reported", "Selint.C77_found", "Selint.C77_optional", "Selint.C77_optional_run", "Selint.C77_explicit", "Selint.C77_used", "Selint.C77_calls_template", "Selint.C77_declaration", "Selint.C77_own", "Selint.C77_interface_module", "Selint.C77_status", "Selint.C77_templates"], "note": "A check of this kind finds the same at a node of the tree and at the place of its statement in the text, though calls of templates that cannot be expanded are missing in the tree; so its findings are exactly those at the places of the text (C77_reported, C77_found). The theorems for single checks say what that means for W-001, W-002, W-005, W-011, S-004 and S-005 in terms of the texts, the first defining file of an interface and the module configuration. For W-001, W-002 and W-011 whose symbol a name is is what the tables at the end of reading say, which C73_module and C76 describe. Exempt from the second half: the lost calls themselves and files with a command that names the check."},
 {"property": "C78", "status": "proved", "theorems": ["Selint.C78_means", "Selint.C78_run", "Selint.C78_unique", "Selint.C78_paths", "Selint.C78_usage", "Selint.C78_writable", "Selint.C78_modules_conf"], "note": ""},
 {"property": "C79", "status": "proved", "theorems": ["Selint.C79_finds", "Selint.C79_reported", "Selint.C79_found"], "note": "All 26 checks without memory of te and interface files. For C-004, W-003 and E-009 the run-level theorems assume that the file has no call of a template that cannot be expanded. C-001, S-010 and the checks of fc files have their own properties."},
 {"property": "C80", "status": "proved", "theorems": ["Selint.C80_search", "Selint.C80_from_str", "Selint.C80_from_strn", "Selint.C80_consume", "Selint.C80_copy", "Selint.C80_concat", "Selint.C80_from_strs", "Selint.C80_append", "Selint.C80_append_null", "Selint.C80_free", "Selint.C80_after_free", "Selint.C80_concat_self"], "note": "A memory of typed objects; predicates in Spec/Memory.lean say which objects a list consists of. C80_concat_self: joining a list with itself is the one misuse shown."},
 {"property": "C81", "status": "proved", "theorems": ["Selint.C81_tree", "Selint.C81_nothing_left", "Selint.C81_twice", "Selint.C81_declarations", "Selint.C81_calls", "Selint.C81_calls_and_tree", "Selint.C81_files", "Selint.C81_make_file", "Selint.C81_push", "Selint.C81_file_name"], "note": "Freed objects are exactly those of the predicates NodesAt, DeclsAt, CallsAt, FileListAt of Spec/Memory.lean."},
 {"property": "C82", "status": "proved", "theorems": ["Selint.C82_names", "Selint.C82_required", "Selint.C82_given_back", "Selint.C82_incomplete", "Selint.C82_text", "Selint.C82_names_of_text"], "note": "Complete says which nodes can be handled; C82_text shows that the nodes of texts are."},
 {"property": "C83", "status": "proved", "theorems": ["Selint.C83_order", "Selint.C83_reports", "Selint.section_title", "Selint.section_exists", "Selint.section_unique", "Selint.subsection_iff", "Selint.average_eq"], "note": "The relation WrongBefore of Spec/Sections.lean is the order rules as they are coded, including that a type transition is placed by its first target (get_section reads it as a rule of another kind) and that sections out of order are only complained about if both the average line and the alphabet say so. The average is the one the code computes in single precision. C29 says which lines are kept."},
 {"property": "C84", "status": "proved", "theorems": ["Selint.C84_feed", "Selint.C84_lines", "Selint.C84_scan", "Selint.C84_shown", "Selint.C84_right", "Selint.C84_ahead", "Selint.C84_token", "Selint.C84_first", "Selint.C84_end", "Selint.C84_unprintable", "Selint.C84_hex"], "note": "Lines are handed to the scanner whole in scanText; C84_feed covers requests of any size. The wording of bison's messages and the choice of the token at which it reports are not modelled: yyerror is given a location and a message. The English statement lists the defects of the code (column on the first line, end of file, look-ahead, value of bytes from 0x80 on), which are proved as such. Tokens that begin with a form feed or vertical tab are left out of C84_token and C84_first."},
 {"property": "C85", "status": "proved", "theorems": ["Selint.C85_parse", "Selint.C85_release", "Selint.C85_nothing_left", "Selint.C85_string_left"], "note": "Parsed (Spec/ParseInMemory.lean) lists all objects there are afterwards. Files that are rejected are not covered. The derivation is given; that bison runs its actions in this order is trusted as in the functional model (DESIGN.md)."},
 {"property": "C86", "status": "proved", "theorems": ["Selint.C86_parse", "Selint.C86_release", "Selint.C86_nothing_left", "Selint.C86_range_lost"], "note": "reading and releasing; the loss of an inner range shown on a concrete file"},
 {"property": "C87", "status": "proved", "theorems": ["Selint.C87_operations", "Selint.C87_look_up", "Selint.C87_look_up_macro", "Selint.C87_look_up_template", "Selint.C87_outlive", "Selint.C87_free", "Selint.C87_left", "Selint.C87_nothing_left"], "note": "Calls on allocated tables, look-ups, freeing; what is left when a macro is defined twice is characterised exactly."},
 {"property": "C88", "status": "proved", "theorems": ["Selint.C88_register", "Selint.C88_register_checks", "Selint.C88_call", "Selint.C88_free", "Selint.C88_checks", "Selint.C88_macros", "Selint.C88_sections", "Selint.C88_sections_left", "Selint.C88_sections_undefined", "Selint.C88_sections_parsed"], "note": "Registering, running and freeing checks; loading and freeing permission macros; collecting and freeing sections, all on a memory of allocated objects, against the functional models; the one leak is characterised and shown not to occur for parsed te files."},
 {"property": "C89", "status": "proved", "theorems": ["Selint.C89_expand", "Selint.C89_freed", "Selint.C89_direct", "Selint.C89_lost", "Selint.C89_false_all_given_back"], "note": "add_template_declarations, replace_m4 and replace_m4_list on allocated memory: same result and tables as on values, everything else unchanged, nothing left on success and on loops, exactly the enclosing names (two objects each) on a failed substitution, with a concrete witness"},
 {"property": "C90", "status": "proved", "theorems": ["Selint.C90_safe", "Selint.C90_owned", "Selint.C90_rejected", "Selint.C90_yyerror", "Selint.C90_nothing_left", "Selint.C90_accepted", "Selint.C90_user_left", "Selint.C90_command_left", "Selint.C90_interface_left", "Selint.Lr.rules_ok", "Selint.Lr.Cmd.sound"], "note": "Productions and actions as a table, bison's stack machine; all move sequences. The automaton's choice of moves is left open."},
 {"property": "C91", "status": "proved", "theorems": ["Selint.C91_step", "Selint.C91_file"], "note": "for all texts; the automaton flex generates is represented by derivatives of the expressions, as in C48"},
 {"property": "C92", "status": "proved", "theorems": ["Selint.C92_parses"], "note": "every typed production is a sequence of moves of the stack machine with the same effect on memory; with C85 the tree and the tables follow"},
 {"property": "C93", "status": "proved", "theorems": ["Selint.C93_accepted", "Selint.C93_language"], "note": "every symbol on the stack stands for a piece of a derivation; each of the 283 productions keeps this; converse by C92"},
 {"property": "C94", "status": "proved", "theorems": ["Selint.C94_accepted", "Selint.C94_text", "Selint.C94_unique", "Selint.C94_rejected"], "note": "All moves of bison's machine with its default locations; which of them the LALR tables choose is not modelled, and by this theorem makes no difference to what is built when the file is accepted."},
 {"property": "C95", "status": "proved", "theorems": ["Selint.C95_accepts", "Selint.C95_accepted", "Selint.C95_language", "Selint.C95_once"], "note": "the tables are checked, not trusted; conditions are proved separately because of their precedences"},
 {"property": "C96", "status": "proved", "theorems": ["Selint.C96_linear", "Selint.C96_ends", "Selint.C96_errors", "Selint.C96_safe", "Selint.C96_verdict"], "note": "the tables, items, phases and weights are checked by the kernel for all states"},
 {"property": "C97", "status": "proved", "theorems": ["Selint.C97_unique", "Selint.C97_exists", "Selint.C97_place", "Selint.C97_sentences", "Selint.C97_accepted", "Selint.C97_reported"], "note": ""},
 {"property": "C98", "status": "proved", "theorems": ["Selint.C98_message", "Selint.C98_statement", "Selint.C98_action", "Selint.C98_incomplete"], "note": ""},
 {"property": "C99", "status": "proved", "theorems": ["Selint.C99_rounding", "Selint.C99_average", "Selint.C99_exact", "Selint.C99_order", "Selint.C99_far", "Selint.C99_wraps", "Selint.C99_types"], "note": "single precision is specified by nearest-with-ties-to-even, without reference to the model's rounding function; overflow and subnormal numbers do not occur (operands below 2^32)"},
 {"property": "C100", "status": "proved", "theorems": ["Selint.C100_output", "Selint.C100_text", "Selint.C100_end", "Selint.C100_safe", "Selint.C100_unterminated"], "note": "What yyparse prints for a syntax error, in full. Errors raised by actions (YYERROR) are C98_action: bison may not have read the token after them, on which the lines kept depend."},
 {"property": "C101", "status": "proved", "theorems": ["Selint.C101_height", "Selint.C101_sound", "Selint.C101_same", "Selint.C101_enough", "Selint.C101_language", "Selint.C101_short", "Selint.C101_exhausted", "Selint.C101_once", "Selint.C101_comments", "Selint.C101_not_all", "Selint.C101_words", "Selint.C101_warning", "Selint.C101_not_words", "Selint.C101_definition", "Selint.C101_long_definition", "Selint.C101_not_definition"], "note": "The limit is modelled around the driver of C95. C101_height bounds the stack by what has piled up in the tokens, C101_enough and C101_language show that the limit then makes no difference, C101_short that short texts are never too much, C101_sound and C101_same that nothing else is accepted, C101_exhausted, C101_comments and C101_not_all that it does make a difference for files that begin with 9999 comments, C101_words, C101_warning and C101_not_words for those with a refpolicywarn of 9996 words, C101_definition, C101_long_definition and C101_not_definition for those with a define (its name not quoted) of 9993 words."},
 {"property": "C102", "status": "proved", "theorems": ["Selint.C102_output", "Selint.C102_sentence", "Selint.C102_told", "Selint.C102_text", "Selint.C102_ahead"], "note": "All texts; C102_ahead is the exception named in the statement."},
 {"property": "C103", "status": "proved", "theorems": ["Selint.C103_understood", "Selint.C103_names", "Selint.C103_letters", "Selint.C103_hidden", "Selint.C103_implies"], "note": "C103_hidden is the exception named in the statement."},
 {"property": "C104", "status": "proved", "theorems": ["Selint.C104_findings", "Selint.C104_summary", "Selint.C104_errors", "Selint.C104_syntax", "Selint.C104_output", "Selint.C104_removed", "Selint.C104_plain", "Selint.C104_same", "Selint.C104_parsing", "Selint.C104_spoken"], "note": "Findings, the summary and everything yyerror prints; the stretches are never nested and always end with the reset code. C104_removed assumes that the uncoloured text has no escape character, which C104_plain proves for yyerror from the file name and the message alone. C104_parsing extends this to all that is printed while the policy files are parsed."},
 {"property": "C105", "status": "proved", "theorems": ["Selint.C105_reason", "Selint.C105_goes_on", "Selint.C105_config", "Selint.C105_status", "Selint.C105_colours", "Selint.C105_verbose"], "note": "Standard output up to the first look at a file; what getopt_long and libconfuse write to the standard error is outside the model. An empty check id is undefined behaviour (C46) and then nothing is claimed."},
 {"property": "C106", "status": "proved", "theorems": ["Selint.C106_scan", "Selint.C106_explicit", "Selint.C106_recursive", "Selint.C106_support", "Selint.C106_silent", "Selint.C106_kernel", "Selint.C106_end", "Selint.C106_colours_scan", "Selint.C106_colours_support", "Selint.C106_colours_end"], "note": "What the parser and strerror(3) say about a support file are parameters here (C102 has the former). Without -r no directory on the command line is named like a policy file, as in C47."},
 {"property": "C107", "status": "proved", "theorems": ["Selint.C107_silence", "Selint.C107_quiet", "Selint.C107_checks", "Selint.C107_findings", "Selint.C107_colours", "Selint.C107_spoken", "Selint.C107_defined", "Selint.C107_silent_iff", "Selint.C107_silent_same"], "note": "What the parsers print (C98-C102; put in by C107_spoken) and the order qsort gives to equal hooks are parameters. C107_quiet and C107_silent_iff have C47's hypothesis that without -r no directory on the command line is named like a policy file."},
 {"property": "C108", "status": "proved", "theorems": ["Selint.C108_result", "Selint.C108_text", "Selint.C108_parsing", "Selint.C108_spoken"], "note": "What the parser prints is a parameter of C108_text; C108_spoken is about the whole program with the parser's messages (Model/SpokenText.lean). The order qsort gives to the hooks is a parameter."},
 {"property": "C109", "status": "proved", "theorems": ["Selint.C109_accepted", "Selint.C109_refused", "Selint.C109_run", "Selint.C109_main", "Selint.C109_false_fc", "Selint.C109_support", "Selint.C109_undefined", "Selint.C109_verdict", "Selint.C109_any_order", "Selint.C109_quiet", "Selint.C109_spoken", "Selint.C109_vectors", "Selint.C109_perm_sets", "Selint.C109_apart", "Selint.C109_defined"], "note": "What is printed while the policy files are parsed: nothing about files that are parsed, and the file that makes the analysis fail is named unless it is an fc file (witness C109_false_fc). How yylloc stands before a file, strerror and bison's name of the end of file are parameters."}
]}
