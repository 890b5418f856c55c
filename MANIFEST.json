{
 "claims": [
  {
   "property": "C01",
   "status": "proved",
   "theorems": [
    "Verif.Props.Quote.C01_unquote_quote",
    "Verif.Props.Quote.C01_quote_injective"
   ],
   "note": ""
  },
  {
   "property": "C02",
   "status": "proved",
   "theorems": [
    "Verif.Props.Quote.C02_quote_single_token",
    "Verif.Props.Quote.C02_exception_witness",
    "Verif.Props.Quote.C02_quote_ascii"
   ],
   "note": "Exception characterised: the empty string's quotes followed directly by a double quote."
  },
  {
   "property": "C03",
   "status": "proved",
   "theorems": [
    "Verif.Props.Quote.C03_print_string",
    "Verif.Props.Quote.C03_panic_witness",
    "Verif.Props.Quote.C03_print_string_crash_iff"
   ],
   "note": "Holds whenever printing does not crash; crashes characterised exactly (C03_print_string_crash_iff)."
  },
  {
   "property": "C04",
   "status": "proved",
   "theorems": [
    "Verif.Props.Labels.C04_parse_format_parse",
    "Verif.Props.Labels.C04_parse_format",
    "Verif.Props.Labels.C04_format_injective"
   ],
   "note": ""
  },
  {
   "property": "C05",
   "status": "proved",
   "theorems": [
    "Verif.Props.Labels.C05_shorten_denotes_iff",
    "Verif.Props.Labels.C05_shorten_preserves",
    "Verif.Props.Labels.C05_shorten_relative",
    "Verif.Props.Labels.C05_exception_witness"
   ],
   "note": "Exact iff, plus witness for degenerate labels (all-@ repositories, targets starting with a colon)."
  },
  {
   "property": "C06",
   "status": "proved",
   "theorems": [
    "Verif.Props.Labels.C06_shorten_forms",
    "Verif.Props.Labels.C06_shorten_idempotent",
    "Verif.Props.Labels.C06_shorten_canonical"
   ],
   "note": ""
  },
  {
   "property": "C07",
   "status": "proved",
   "theorems": [
    "Verif.Props.Labels.C07_equal_equivalence",
    "Verif.Props.Labels.C07_equal_iff_denotes",
    "Verif.Props.Labels.C07_equal_colon",
    "Verif.Props.Labels.C07_equal_long_short",
    "Verif.Props.Labels.C07_equal_default_target"
   ],
   "note": ""
  },
  {
   "property": "C08",
   "status": "proved",
   "theorems": [
    "Verif.Props.Diff.C08_difference_exact",
    "Verif.Props.Diff.C08_difference_tight"
   ],
   "note": ""
  },
  {
   "property": "C09",
   "status": "proved",
   "theorems": [
    "Verif.Props.Diff.C09_suggest_effect",
    "Verif.Props.Diff.C09_suggest_rolls_back",
    "Verif.Props.Diff.C09_rolls_back_iff",
    "Verif.Props.Diff.C09_rewriting_formatter_witness"
   ],
   "note": "Exact effect proved for arbitrary formatter; rollback holds iff the formatter leaves the replaced slots alone; witness that a rewriting formatter breaks it."
  },
  {
   "property": "C10",
   "status": "proved",
   "theorems": [
    "Verif.Props.SortStrings.C10_strict_total_order",
    "Verif.Props.SortStrings.C10_documented_order",
    "Verif.Props.SortStrings.C10_algorithm_independent"
   ],
   "note": ""
  },
  {
   "property": "C11",
   "status": "partial",
   "theorems": [
    "Verif.Props.SortStrings.C11_rearranges",
    "Verif.Props.SortStrings.C11_values_kept",
    "Verif.Props.SortStrings.C11_every_chunk_sorted_partial",
    "Verif.Props.SortStrings.C11_unsorted_witness"
   ],
   "note": ""
  },
  {
   "property": "C12",
   "status": "partial",
   "theorems": [
    "Verif.Props.SortStrings.C12_idempotent_partial",
    "Verif.Props.SortStrings.C12_idempotent_distinct",
    "Verif.Props.SortStrings.C12_not_idempotent_witness"
   ],
   "note": ""
  },
  {
   "property": "C13",
   "status": "proved",
   "theorems": [
    "Verif.Props.Dedup.C13_keeps_first_occurrences",
    "Verif.Props.Dedup.C13_comments",
    "Verif.Props.Dedup.C13_values",
    "Verif.Props.Dedup.C13_lost_comment_witness"
   ],
   "note": ""
  },
  {
   "property": "C14",
   "status": "proved",
   "theorems": [
    "Verif.Props.CallArgs.C14_sorts_trailing_keywords",
    "Verif.Props.CallArgs.C14_algorithm_independent",
    "Verif.Props.CallArgs.C14_idempotent",
    "Verif.Props.SortWhere.C14_node"
   ],
   "note": ""
  },
  {
   "property": "C15",
   "status": "proved",
   "theorems": [
    "Verif.Props.ReorderArgs.C15_reorder",
    "Verif.Props.ReorderArgs.C15_idempotent",
    "Verif.Props.ReorderArgs.C15_legal_untouched",
    "Verif.Props.SortWhere.C15_node"
   ],
   "note": ""
  },
  {
   "property": "C16",
   "status": "proved",
   "theorems": [
    "Verif.Props.LoadTop.C16_moves_loads",
    "Verif.Props.LoadTop.C16_order",
    "Verif.Props.LoadTop.C16_idempotent",
    "Verif.Props.LoadTop.C16_disabled",
    "Verif.Props.LoadTop.C16_enabled"
   ],
   "note": ""
  },
  {
   "property": "C17",
   "status": "proved",
   "theorems": [
    "Verif.Props.LoadMerge.C17_bindings_kept",
    "Verif.Props.LoadMerge.C17_bindings_in_order",
    "Verif.Props.LoadMerge.C17_other_statements",
    "Verif.Props.LoadMerge.C17_one_load_per_module",
    "Verif.Props.LoadMerge.C17_idempotent",
    "Verif.Props.LoadMerge.C17_lost_comment_witness"
   ],
   "note": ""
  },
  {
   "property": "C18",
   "status": "partial",
   "theorems": [
    "Verif.Props.LoadSort.C18_places",
    "Verif.Props.LoadSort.C18_permutes_within_stretches",
    "Verif.Props.LoadSort.C18_file",
    "Verif.Props.LoadSort.C18_file_permutes",
    "Verif.Props.LoadSort.C18_sorted_partial"
   ],
   "note": ""
  },
  {
   "property": "C19",
   "status": "partial",
   "theorems": [
    "Verif.Props.LoadSort.C19_not_transitive_witness",
    "Verif.Props.LoadSort.C19_irreflexive_asymmetric",
    "Verif.Props.LoadSort.C19_strict_weak_order_partial"
   ],
   "note": ""
  },
  {
   "property": "C20",
   "status": "proved",
   "theorems": [
    "Verif.Props.LoadArgs.C20_preserves_bindings",
    "Verif.Props.LoadArgs.C20_any_load",
    "Verif.Props.LoadArgs.C20_idempotent",
    "Verif.Props.LoadArgs.C20_statement",
    "Verif.Props.LoadArgs.C20_duplicate_kept_witness"
   ],
   "note": ""
  },
  {
   "property": "C21",
   "status": "proved",
   "theorems": [
    "Verif.Props.Numbers.C21_octal_value",
    "Verif.Props.Numbers.C21_octal_others",
    "Verif.Props.Numbers.C21_octal_idempotent",
    "Verif.Props.Numbers.C21_float_value",
    "Verif.Props.Numbers.C21_float_idempotent",
    "Verif.Props.Numbers.C21_float_others",
    "Verif.Props.Numbers.C21_octal_tree",
    "Verif.Props.Numbers.C21_float_tree",
    "Verif.Props.Numbers.C21_zero_exponent_witness",
    "Verif.Props.Numbers.C21_leading_zero_float_witness"
   ],
   "note": ""
  },
  {
   "property": "C22",
   "status": "proved",
   "theorems": [
    "Verif.Props.Docstring.C22_only_spaces_change",
    "Verif.Props.Docstring.C22_idempotent",
    "Verif.Props.Docstring.C22_backslash_witness"
   ],
   "note": ""
  },
  {
   "property": "C23",
   "status": "proved",
   "theorems": [
    "Verif.Props.Parens.C23_only_redundant",
    "Verif.Props.Parens.C23_complete"
   ],
   "note": ""
  },
  {
   "property": "C24",
   "status": "proved",
   "theorems": [
    "Verif.Props.FixLabels.C24_label_denotes",
    "Verif.Props.FixLabels.C24_unusual_witness",
    "Verif.Props.FixLabels.C24_join",
    "Verif.Props.FixLabels.C24_element",
    "Verif.Props.FixLabels.C24_list",
    "Verif.Props.FixLabels.C24_sum_witness",
    "Verif.Props.FixLabels.C24_label_attributes_only",
    "Verif.Props.LabelRewrite.C24_shortened",
    "Verif.Props.LabelRewrite.C24_only_shortened",
    "Verif.Props.LabelRewrite.C24_own_package",
    "Verif.Props.LabelRewrite.C24_strip",
    "Verif.Props.LabelRewrite.C24_dir",
    "Verif.Props.LabelRewrite.C24_file",
    "Verif.Props.LabelRewrite.C24_file_example"
   ],
   "note": ""
  },
  {
   "property": "C25",
   "status": "proved",
   "theorems": [
    "Verif.Props.Rewriter.C25_exact",
    "Verif.Props.Rewriter.C25_none",
    "Verif.Props.Rewriter.C25_empty_set",
    "Verif.Props.Rewriter.C25_all_disabled",
    "Verif.Props.Rewriter.C25_depends_only_on_applicable",
    "Verif.Props.Rewriter.C25_leave_alone_callsort",
    "Verif.Props.Rewriter.C25_leave_alone_label",
    "Verif.Props.Rewriter.C25_leave_alone_subtree"
   ],
   "note": ""
  },
  {
   "property": "C26",
   "status": "proved",
   "theorems": [
    "Verif.Props.Walk.C26_walk_visits_every_node_once",
    "Verif.Props.Walk.C26_walk_log",
    "Verif.Props.Walk.C26_stack_is_ancestors",
    "Verif.Props.Walk.C26_interruptable",
    "Verif.Props.Walk.C26_edit_identity",
    "Verif.Props.Walk.C26_weak_slot_witness"
   ],
   "note": "typedIdent children and def return types are not visited by the code and therefore not by the specification."
  },
  {
   "property": "C27",
   "status": "proved",
   "theorems": [
    "Verif.Props.Attr.C27_get",
    "Verif.Props.Attr.C27_set",
    "Verif.Props.Attr.C27_get_set",
    "Verif.Props.Attr.C27_get_set_other",
    "Verif.Props.Attr.C27_delete",
    "Verif.Props.Attr.C27_get_delete",
    "Verif.Props.Attr.C27_rename",
    "Verif.Props.Attr.C27_rename_value",
    "Verif.Props.Attr.C27_keys"
   ],
   "note": ""
  },
  {
   "property": "C28",
   "status": "proved",
   "theorems": [
    "Verif.Props.Attr.C28_get",
    "Verif.Props.Attr.C28_set",
    "Verif.Props.Attr.C28_get_set",
    "Verif.Props.Attr.C28_delete",
    "Verif.Props.Attr.C28_get_delete",
    "Verif.Props.Attr.C28_delete_loses_nonstring"
   ],
   "note": ""
  },
  {
   "property": "C29",
   "status": "proved",
   "theorems": [
    "Verif.Props.ListEdit.C29_exact",
    "Verif.Props.ListEdit.C29_exact_other",
    "Verif.Props.ListEdit.C29_nil",
    "Verif.Props.ListEdit.C29_elements",
    "Verif.Props.ListEdit.C29_idempotent"
   ],
   "note": ""
  },
  {
   "property": "C30",
   "status": "proved",
   "theorems": [
    "Verif.Props.ListEdit.C30_insert",
    "Verif.Props.ListEdit.C30_sorted"
   ],
   "note": ""
  },
  {
   "property": "C31",
   "status": "proved",
   "theorems": [
    "Verif.Props.ListEdit.C31_exact",
    "Verif.Props.ListEdit.C31_elements",
    "Verif.Props.ListEdit.C31_result",
    "Verif.Props.Select.C31_attribute"
   ],
   "note": ""
  },
  {
   "property": "C32",
   "status": "proved",
   "theorems": [
    "Verif.Props.ListEdit.C32_exact",
    "Verif.Props.ListEdit.C32_result"
   ],
   "note": ""
  },
  {
   "property": "C33",
   "status": "proved",
   "theorems": [
    "Verif.Props.Select.C33_simplify",
    "Verif.Props.Select.C33_add_present",
    "Verif.Props.Select.C33_resolve",
    "Verif.Props.Select.C33_copies_nonstrings",
    "Verif.Props.Select.C33_simplified"
   ],
   "note": ""
  },
  {
   "property": "C34",
   "status": "partial",
   "theorems": [
    "Verif.Props.LoadEdit.C34_append",
    "Verif.Props.LoadEdit.C34_new",
    "Verif.Props.LoadEdit.C34_panic",
    "Verif.Props.LoadEdit.C34_available",
    "Verif.Props.LoadEdit.C34_idempotent",
    "Verif.Props.LoadEdit.C34_replace_partial",
    "Verif.Props.LoadEdit.C34_replace_no_empty",
    "Verif.Props.LoadEdit.C34_replace_witness",
    "Verif.Props.LoadEdit.C34_other_origin_witness"
   ],
   "note": ""
  },
  {
   "property": "C35",
   "status": "partial",
   "theorems": [
    "Verif.Props.Rules.C35_kind",
    "Verif.Props.Rules.C35_implicit_name",
    "Verif.Props.Rules.C35_delete_by_name",
    "Verif.Props.Rules.C35_delete_by_kind",
    "Verif.Props.Rules.C35_delete_rule",
    "Verif.Props.Rules.C35_remove_empty_package",
    "Verif.Props.Rules.C35_delrules_partial",
    "Verif.Props.Rules.C35_insert_after",
    "Verif.Props.Rules.C35_insert_at_end",
    "Verif.Props.Rules.C35_insert_same_kind",
    "Verif.Props.Rules.C35_package_declaration",
    "Verif.Props.Rules.C35_delrules_witness"
   ],
   "note": ""
  },
  {
   "property": "C36",
   "status": "proved",
   "theorems": [
    "Verif.Props.UnusedLoads.C36_used_symbols",
    "Verif.Props.UnusedLoads.C36_statements",
    "Verif.Props.UnusedLoads.C36_used_kept",
    "Verif.Props.UnusedLoads.C36_only_used",
    "Verif.Props.UnusedLoads.C36_meaning",
    "Verif.Props.UnusedLoads.C36_meaning_witness",
    "Verif.Props.UnusedLoads.C36_types_witness"
   ],
   "note": ""
  },
  {
   "property": "C37",
   "status": "proved",
   "theorems": [
    "Verif.Props.Split.C37_split",
    "Verif.Props.Split.C37_split_iff",
    "Verif.Props.Split.C37_words_nonempty",
    "Verif.Props.Split.C37_line",
    "Verif.Props.Split.C37_parse_commands",
    "Verif.Props.Split.C37_append_commands",
    "Verif.Props.Split.C37_lines"
   ],
   "note": ""
  },
  {
   "property": "C38",
   "status": "proved",
   "theorems": [
    "Verif.Props.Buildozer.C38_schedule_independent",
    "Verif.Props.Buildozer.C38_no_deadlock",
    "Verif.Props.Buildozer.C38_terminates",
    "Verif.Props.Buildozer.C38_exit_code",
    "Verif.Props.Buildozer.C38_alias_witness"
   ],
   "note": ""
  },
  {
   "property": "C39",
   "status": "proved",
   "theorems": [
    "Verif.Props.Buildozer.C39_events_exist",
    "Verif.Props.Buildozer.C39_failed_untouched",
    "Verif.Props.Buildozer.C39_parse_error",
    "Verif.Props.Buildozer.C39_written_iff",
    "Verif.Props.Buildozer.C39_reported"
   ],
   "note": ""
  },
  {
   "property": "C40",
   "status": "proved",
   "theorems": [
    "Verif.Props.Buildifier.C40_in_order",
    "Verif.Props.Buildifier.C40_contents",
    "Verif.Props.Buildifier.C40_no_deadlock",
    "Verif.Props.Buildifier.C40_terminates",
    "Verif.Props.Buildifier.C40_workers",
    "Verif.Props.Buildifier.C40_exit_code",
    "Verif.Props.Buildifier.C40_duplicate_witness"
   ],
   "note": ""
  },
  {
   "property": "C41",
   "status": "proved",
   "theorems": [
    "Verif.Props.Buildifier.C41_parse_error",
    "Verif.Props.Buildifier.C41_check",
    "Verif.Props.Buildifier.C41_fix",
    "Verif.Props.Buildifier.C41_diff",
    "Verif.Props.Buildifier.C41_print",
    "Verif.Props.Buildifier.C41_only_fix_writes",
    "Verif.Props.Buildifier.C41_stdin",
    "Verif.Props.Buildifier.C41_run_check",
    "Verif.Props.Buildifier.C41_unreadable_witness"
   ],
   "note": ""
  },
  {
   "property": "C42",
   "status": "proved",
   "theorems": [
    "Verif.Props.Buildifier.C42_modes",
    "Verif.Props.Buildifier.C42_type_format",
    "Verif.Props.Buildifier.C42_warnings",
    "Verif.Props.Buildifier.C42_twice_witness",
    "Verif.Props.Buildifier.C42_config"
   ],
   "note": ""
  },
  {
   "property": "C43",
   "status": "proved",
   "theorems": [
    "Verif.Props.Wspace.C43_find",
    "Verif.Props.Wspace.C43_nearest",
    "Verif.Props.Wspace.C43_deterministic",
    "Verif.Props.Wspace.C43_workspace_root",
    "Verif.Props.Wspace.C43_split",
    "Verif.Props.Wspace.C43_markers"
   ],
   "note": ""
  },
  {
   "property": "C44",
   "status": "proved",
   "theorems": [
    "Verif.Props.Bzlmod.C44_use_repos",
    "Verif.Props.Bzlmod.C44_add",
    "Verif.Props.Bzlmod.C44_add_used",
    "Verif.Props.Bzlmod.C44_remove",
    "Verif.Props.Bzlmod.C44_remove_used",
    "Verif.Props.Bzlmod.C44_proxies",
    "Verif.Props.Bzlmod.C44_all_proxies",
    "Verif.Props.Bzlmod.C44_new",
    "Verif.Props.Bzlmod.C44_command",
    "Verif.Props.Bzlmod.C44_duplicate_witness",
    "Verif.Props.Bzlmod.C44_apparent_name",
    "Verif.Props.Bzlmod.C44_same_label",
    "Verif.Props.Bzlmod.C44_same_label_example"
   ],
   "note": ""
  },
  {
   "property": "C45",
   "status": "proved",
   "theorems": [
    "Verif.Props.BzlmodNames.C45_rules",
    "Verif.Props.BzlmodNames.C45_file",
    "Verif.Props.BzlmodNames.C45_traversal",
    "Verif.Props.BzlmodNames.C45_mapping",
    "Verif.Props.BzlmodNames.C45_path",
    "Verif.Props.BzlmodNames.C45_clean"
   ],
   "note": ""
  },
  {
   "property": "C46",
   "status": "proved",
   "theorems": [
    "Verif.Props.Comments.C46_assign",
    "Verif.Props.Comments.C46_file"
   ],
   "note": ""
  },
  {
   "property": "C47",
   "status": "proved",
   "theorems": [
    "Verif.Props.Lexer.C47_terminates",
    "Verif.Props.Lexer.C47_balanced",
    "Verif.Props.Lexer.C47_brackets",
    "Verif.Props.Lexer.C47_block_start"
   ],
   "note": ""
  },
  {
   "property": "C48",
   "status": "proved",
   "theorems": [
    "Verif.Props.Lexer.C48_tiles"
   ],
   "note": ""
  },
  {
   "property": "C49",
   "status": "partial",
   "theorems": [
    "Verif.Props.Reformat.C49_reformat_partial",
    "Verif.Props.Reformat.C49_parsed_ok",
    "Verif.Props.Reformat.C49_backslash_crash",
    "Verif.Props.Reformat.C49_trailing_backslash",
    "Verif.Props.Reformat.C49_loop_variable_comment",
    "Verif.Props.ReformatComments.C49_comments_partial",
    "Verif.Props.ReformatComments.C49_index_comment",
    "Verif.Props.ReformatInside.C49_inside_partial"
   ],
   "note": "C49_reformat_partial: every file without comments; C49_comments_partial: every file whose comments are before, after or at the end of statements (or at the end of the line of an if, elif, else or for); C49_inside_partial: also comments inside expressions and parameter lists, before a part that starts a line when printed or at the end of a line. All exclude files that end with a backslash and line breaks inside a tuple without parentheses; these exclusions are necessary (C49_backslash_crash, C49_trailing_backslash, C50_tuple_line_break: the claim is false there). Missing: files with a comment on its own line in the middle of a printed line, such as before an operand or a callee, or on elements of tuples without parentheses (false in general: C49_loop_variable_comment), and files with a comment left over after the last statement (C49_index_comment)."
  },
  {
   "property": "C50",
   "status": "proved",
   "theorems": [
    "Verif.Props.Round.C50_read_back",
    "Verif.Props.Round.C50_expression",
    "Verif.Props.Round.C50_conditional",
    "Verif.Props.Round.C50_lambda_is",
    "Verif.Props.Round.C50_is_not",
    "Verif.Props.Round.C50_integer_dot",
    "Verif.Props.Round.C50_tuple_line_break",
    "Verif.Props.RoundComments.C50_comments",
    "Verif.Props.RoundComments.C50_comments_witness",
    "Verif.Props.RoundComments.C50_bad_comments",
    "Verif.Props.RoundComments.C50_empty_block",
    "Verif.Props.RoundInside.C50_inside",
    "Verif.Props.RoundInside.C50_inside_witness",
    "Verif.Props.RoundInside.C50_comment_in_line"
   ],
   "note": "C50_comments: trees with comments on statements (before, after, end of line, comment blocks, heads of if/elif/else/for). C50_inside: also comments at the end of the line of any node of an expression, before elements of lists, sets, dictionaries and tuples in brackets, before arguments, parameters, parts of comprehensions and closing brackets; comments before other nodes end the line (C50_comment_in_line) and are excluded, as are After comments of the file. Expressions: trees in which no operand is a conditional and the other listed exceptions of RoundSpec.Ok do not occur; each exception has a witness theorem (C50_conditional, C50_lambda_is, C50_is_not, C50_integer_dot, C50_tuple_line_break) showing that the printed text means something else or is rejected."
  },
  {
   "property": "C51",
   "status": "proved",
   "theorems": [
    "Verif.Printed.C51_parsed",
    "Verif.Printed.C51_source",
    "Verif.Printed.C51_lost_load",
    "Verif.Printed.C51_lost_elif",
    "Verif.Printed.C51_moved",
    "Verif.Printed.C51_file",
    "Verif.Printed.C51_lost",
    "Verif.Printed.C51_merged"
   ],
   "note": "Trees: the comments shown are listed by position (PrintedSpec.shown). Parsed files (C51_parsed, C51_source): every comment of the source except those listed by lostL is printed; lostL names three places where the program really loses comments (C51_lost, C51_lost_load, C51_lost_elif). C51_merged: two comments can become one line; C51_moved: a comment moves to another statement."
  },
  {
   "property": "C52",
   "status": "proved",
   "theorems": [
    "Verif.Printed.C52_no_trailing_blanks",
    "Verif.Printed.C52_ends_with_newline",
    "Verif.Printed.C52_tuple_comment",
    "Verif.Printed.C52_parsed"
   ],
   "note": "The final newline holds without conditions. No trailing blanks: for trees without holes whose texts have no blank before a line end (multi-line string literals keep theirs), with single-line comments and no comments inside tuples without parentheses (C52_tuple_comment shows that the claim is false there). C52_parsed: the same for parsed files, with conditions on the source only, except for comments inside tuples without parentheses."
  },
  {
   "property": "C53",
   "status": "proved",
   "theorems": [
    "Verif.Props.Layout.C53_collapse_only_layout",
    "Verif.Props.Layout.C53_collapse_complete",
    "Verif.Props.Layout.C53_collapse_idempotent",
    "Verif.Props.Layout.C53_plus_only_layout",
    "Verif.Props.Layout.C53_plus_unbroken",
    "Verif.Props.Plus.C53_plus_no_list",
    "Verif.Props.Plus.C53_plus_useful",
    "Verif.Props.Plus.C53_plus_complete",
    "Verif.Props.Plus.C53_plus_example"
   ],
   "note": ""
  },
  {
   "property": "C54",
   "status": "proved",
   "theorems": [
    "Verif.Props.Flow.C54_sound",
    "Verif.Props.Flow.C54_complete"
   ],
   "note": ""
  },
  {
   "property": "C55",
   "status": "proved",
   "theorems": [
    "Verif.Props.Flow.C55_implicit",
    "Verif.Props.Flow.C55_bare"
   ],
   "note": ""
  },
  {
   "property": "C56",
   "status": "proved",
   "theorems": [
    "Verif.Props.Bzlenv.C56_balanced",
    "Verif.Props.Bzlenv.C56_resolve",
    "Verif.Props.Bzlenv.C56_function",
    "Verif.Props.Bzlenv.C56_unique",
    "Verif.Props.Bzlenv.C56_function_witness",
    "Verif.Props.Bzlenv.C56_complete"
   ],
   "note": ""
  },
  {
   "property": "C57",
   "status": "proved",
   "theorems": [
    "Verif.Props.FileType.C57_name",
    "Verif.Props.FileType.C57_type",
    "Verif.Props.FileType.C57_unique",
    "Verif.Props.FileType.C57_case_directory",
    "Verif.Props.FileType.C57_parser",
    "Verif.Props.FileType.C57_starlark"
   ],
   "note": ""
  },
  {
   "property": "C58",
   "status": "proved",
   "theorems": [
    "Verif.Props.Warn.C58_disabled_iff",
    "Verif.Props.Warn.C58_sorted",
    "Verif.Props.Warn.C58_order",
    "Verif.Props.Warn.C58_warn_exact",
    "Verif.Props.Warn.C58_reported",
    "Verif.Props.Warn.C58_unknown",
    "Verif.Props.Warn.C58_prefix_witness"
   ],
   "note": ""
  },
  {
   "property": "C59",
   "status": "proved",
   "theorems": [
    "Verif.Props.Rules.C59_move_package",
    "Verif.Props.Rules.C59_move_package_idempotent",
    "Verif.Props.Rules.C59_plus_equal"
   ],
   "note": ""
  },
  {
   "property": "C60",
   "status": "proved",
   "theorems": [
    "Verif.Props.Grammar.C60_sound"
   ],
   "note": ""
  },
  {
   "property": "C61",
   "status": "proved",
   "theorems": [
    "Verif.Props.Grammar.C61_complete",
    "Verif.Props.Grammar.C61_unique",
    "Verif.Props.Grammar.C61_refines"
   ],
   "note": ""
  },
  {
   "property": "C62",
   "status": "proved",
   "theorems": [
    "Verif.Props.Grammar.C62_sound",
    "Verif.Props.Grammar.C62_iff"
   ],
   "note": ""
  },
  {
   "property": "C63",
   "status": "proved",
   "theorems": [
    "Verif.Printed.C63_parsed",
    "Verif.Printed.C63_ascii",
    "Verif.Printed.C63_prints",
    "Verif.Printed.C63_prints_expr"
   ],
   "note": "C63_parsed, C63_ascii: the files the parser builds are complete, so formatting parsed sources never panics, unless the source ends in a backslash (C49_backslash_crash) or a string contains a backslash followed by a rune above 255."
  },
  {
   "property": "C64",
   "status": "proved",
   "theorems": [
    "Verif.Props.Commands.C64_remove",
    "Verif.Props.Commands.C64_move",
    "Verif.Props.Commands.C64_move_all_fails",
    "Verif.Props.Commands.C64_move_all",
    "Verif.Props.Commands.C64_replace_list",
    "Verif.Props.Commands.C64_replace_string",
    "Verif.Props.Commands.C64_substitute_list",
    "Verif.Props.Commands.C64_substitute_invalid",
    "Verif.Props.Commands.C64_add_place",
    "Verif.Props.Commands.C64_move_to_itself",
    "Verif.Props.Commands.C64_add",
    "Verif.Props.Commands.C64_add_variable"
   ],
   "note": "For values built from literal lists, selects with literal lists, opaque expressions and +. C64_move_to_itself records that move a a * deletes the attribute."
  },
  {
   "property": "C65",
   "status": "proved",
   "theorems": [
    "Verif.Props.Commands.C65_frame",
    "Verif.Props.Commands.C65_other_attributes"
   ],
   "note": "Commands as listed in CommandFrame.Command; comment, print and fix commands are not among them."
  },
  {
   "property": "C66",
   "status": "proved",
   "theorems": [
    "Verif.Props.Commands.C66_set",
    "Verif.Props.Commands.C66_set_if_absent",
    "Verif.Props.Commands.C66_set_kind",
    "Verif.Props.Commands.C66_set_kind_if_absent",
    "Verif.Props.Commands.C66_rename",
    "Verif.Props.Commands.C66_remove",
    "Verif.Props.Commands.C66_remove_all_changed",
    "Verif.Props.Commands.C66_remove_all",
    "Verif.Props.Commands.C66_remove_if_equal",
    "Verif.Props.Commands.C66_copy",
    "Verif.Props.Commands.C66_copy_no_overwrite",
    "Verif.Props.Commands.C66_copy_missing"
   ],
   "note": "C66_copy: for values that can be printed and read back (the trees of C50). set kind without a value panics in Go and is not covered."
  },
  {
   "property": "C67",
   "status": "proved",
   "theorems": [
    "Verif.Props.Commands.C67_dict_set",
    "Verif.Props.Commands.C67_dict_add",
    "Verif.Props.Commands.C67_dict_colon",
    "Verif.Props.Commands.C67_dict_remove",
    "Verif.Props.Commands.C67_dict_replace_if_equal",
    "Verif.Props.Commands.C67_dict_list_add",
    "Verif.Props.Commands.C67_set_select",
    "Verif.Props.Commands.C67_partial_update"
   ],
   "note": "C67_partial_update records that pairs before an argument without a colon stay although the command fails."
  },
  {
   "property": "C68",
   "status": "proved",
   "theorems": [
    "Verif.Props.Targets.C68_rules",
    "Verif.Props.Targets.C68_targets",
    "Verif.Props.Targets.C68_package",
    "Verif.Props.Targets.C68_delete",
    "Verif.Props.Targets.C68_new",
    "Verif.Props.Targets.C68_new_found"
   ],
   "note": "A file is a list of statements with identities; C68_delete records that deleting a rule nested inside a statement does nothing."
  },
  {
   "property": "C69",
   "status": "proved",
   "theorems": [
    "Verif.Props.Targets.C69_target",
    "Verif.Props.Targets.C69_missing",
    "Verif.Props.Targets.C69_package",
    "Verif.Props.Targets.C69_edited",
    "Verif.Props.Targets.C69_attributes"
   ],
   "note": "Without -edit-variables; the commands are any functions on one call (in particular those of C65)."
  },
  {
   "property": "C70",
   "status": "partial",
   "theorems": [
    "Verif.Props.Again.C70_format_twice_partial",
    "Verif.Props.Again.C70_tree_twice_partial",
    "Verif.Props.Again.C70_module",
    "Verif.Props.Again.C70_load",
    "Verif.Props.Again.C70_comment"
   ],
   "note": "Proved for every file type but MODULE.bazel, for files without comments; the other exclusions are necessary (C70_module, C70_load, C49_trailing_backslash, C50_tuple_line_break: the claim is false there). Missing: files with comments; there the claim is false in general (C70_comment), and for which comments it holds is not settled."
  },
  {
   "property": "C71",
   "status": "proved",
   "theorems": [
    "Verif.Props.Macro.C71_reported_is_macro",
    "Verif.Props.Macro.C71_reported_exactly",
    "Verif.Props.Macro.C71_terminates",
    "Verif.Props.Macro.C71_first_reported_exactly",
    "Verif.Props.Macro.C71_reports_two",
    "Verif.Props.Macro.C71_recursion_depends_on_map_order"
   ],
   "note": "Reported implies macro for all call graphs and map orders; exact for call graphs without recursion and for the first candidate in general. With recursion the converse is false for some map orders (C71_recursion_depends_on_map_order)."
  },
  {
   "property": "C72",
   "status": "proved",
   "theorems": [
    "Verif.Props.Uninit.C72_reported_exactly",
    "Verif.Props.Uninit.C72_witness",
    "Verif.Props.Uninit.C72_augmented",
    "Verif.Props.Uninit.C72_fail",
    "Verif.Props.Uninit.C72_keyword_in_nested_header"
   ],
   "note": "Exact for all files, with the conventions of the check (arguments of fail, augmented assignment, headers of nested functions) written into the specification of reads; witnesses show where they differ from Starlark."
  },
  {
   "property": "C73",
   "status": "proved",
   "theorems": [
    "Verif.Props.UnusedLoadWarn.C73_used_types",
    "Verif.Props.UnusedLoadWarn.C73_reported_exactly",
    "Verif.Props.UnusedLoadWarn.C73_statements",
    "Verif.Props.UnusedLoadWarn.C73_meaning",
    "Verif.Props.UnusedLoadWarn.C73_needs",
    "Verif.Props.UnusedLoadWarn.C73_clean",
    "Verif.Props.UnusedLoadWarn.C73_marked",
    "Verif.Props.UnusedLoadWarn.C73_not_idempotent",
    "Verif.Props.UnusedLoadWarn.C73_marker_ignored",
    "Verif.Props.UnusedLoadWarn.C73_union_type_removed",
    "Verif.Props.UnusedLoadWarn.C73_tuple_type_removed",
    "Verif.Props.UnusedLoadWarn.C73_disabled_by_first"
   ],
   "note": "Exact for all files. The meaning theorem assumes that no load gives one local name to two symbols (Starlark rejects these); the clean-afterwards theorem that no name is loaded from two places (false otherwise, see C73_not_idempotent)."
  },
  {
   "property": "C74",
   "status": "proved",
   "theorems": [
    "Verif.Props.Unused.C74_reported_exactly",
    "Verif.Props.Unused.C74_default_shadowed",
    "Verif.Props.Unused.C74_type_annotation",
    "Verif.Props.Unused.C74_update_and_recursion"
   ],
   "note": "Exact for all files; positions of the findings are not modelled."
  },
  {
   "property": "C75",
   "status": "proved",
   "theorems": [
    "Verif.Cosmetic.C75_reported_exactly",
    "Verif.Cosmetic.C75_misplaced",
    "Verif.Cosmetic.C75_fix_exactly",
    "Verif.Cosmetic.C75_arrangement",
    "Verif.Cosmetic.C75_clean",
    "Verif.Cosmetic.C75_nothing_to_do"
   ],
   "note": "Exact for all trees."
  },
  {
   "property": "C76",
   "status": "proved",
   "theorems": [
    "Verif.Cosmetic.C76_moves",
    "Verif.Cosmetic.C76_reported_exactly",
    "Verif.Cosmetic.C76_idempotent",
    "Verif.Cosmetic.C76_file_types",
    "Verif.Cosmetic.C76_moved_before_use"
   ],
   "note": "Exact for all statement lists."
  },
  {
   "property": "C77",
   "status": "proved",
   "theorems": [
    "Verif.Skylark.C77_none",
    "Verif.Skylark.C77_once",
    "Verif.Skylark.C77_ascii",
    "Verif.Skylark.C77_two_occurrences",
    "Verif.Skylark.C77_panics",
    "Verif.Skylark.C77_slash",
    "Verif.Skylark.C77_comments_reported",
    "Verif.Skylark.C77_comments_safe",
    "Verif.Skylark.C77_comments_complete",
    "Verif.Skylark.C77_dict_entry_lost",
    "Verif.Skylark.C77_nested_lost",
    "Verif.Skylark.C77_docstring"
   ],
   "note": "The replacement is correct for at most one occurrence per text; the witnesses show that it is wrong for two. Completeness of the fix needs that no replacement is lost (witnesses show the loss is real)."
  },
  {
   "property": "C78",
   "status": "proved",
   "theorems": [
    "Verif.Props.Fix.C78_split_options",
    "Verif.Props.Fix.C78_split_reported",
    "Verif.Props.Fix.C78_split_once",
    "Verif.Props.Fix.C78_split_quoted",
    "Verif.Props.Fix.C78_shorten_labels",
    "Verif.Props.Fix.C78_visibility",
    "Verif.Props.Fix.C78_visibility_exports",
    "Verif.Props.Fix.C78_testonly",
    "Verif.Props.FixMore.C78_shorten_reported",
    "Verif.Props.FixMore.C78_reported_example"
   ],
   "note": "Exact for all call nodes; shortenLabels for calls with distinct attribute names."
  },
  {
   "property": "C79",
   "status": "proved",
   "theorems": [
    "Verif.Props.FixMore.C79_genrule_tools",
    "Verif.Props.FixMore.C79_licenses_placed",
    "Verif.Props.FixMore.C79_moved_example",
    "Verif.Props.FixMore.C79_tools_example",
    "Verif.Props.FixText.C79_explicit_labels",
    "Verif.Props.FixText.C79_genrule_cmd",
    "Verif.Props.FixText.C79_execpath_wrapped",
    "Verif.Props.FixText.C79_licenses_lost",
    "Verif.Props.FixText.C79_licenses_moved"
   ],
   "note": "Exact for all texts; moveLicenses for files with and without a package declaration."
  },
  {
   "property": "C80",
   "status": "proved",
   "theorems": [
    "Verif.Props.FixMore.C80_exports",
    "Verif.Props.FixTree.C80_merge_safe",
    "Verif.Props.FixTree.C80_merge_complete",
    "Verif.Props.FixTree.C80_merge_reported",
    "Verif.Props.FixTree.C80_merge_comments",
    "Verif.Props.FixTree.C80_varref",
    "Verif.Props.FixTree.C80_glob",
    "Verif.Props.FixTree.C80_glob_always",
    "Verif.Props.FixTree.C80_fix_nil",
    "Verif.Props.FixTree.C80_frame",
    "Verif.Props.FixTree.C80_unknown",
    "Verif.Props.FixTree.C80_all",
    "Verif.Props.FixTree.C80_one"
   ],
   "note": "mergeLiteralLists exact for all well-shaped trees; completeness of varref not stated (nested varref calls)."
  },
  {
   "property": "C81",
   "status": "proved",
   "theorems": [
    "Verif.Props.NotLoaded.C81_reported",
    "Verif.Props.NotLoaded.C81_rewriting",
    "Verif.Props.NotLoaded.C81_unchanged",
    "Verif.Props.NotLoaded.C81_existing_load",
    "Verif.Props.NotLoaded.C81_new_load",
    "Verif.Props.NotLoaded.C81_again_existing",
    "Verif.Props.NotLoaded.C81_again_new",
    "Verif.Props.NotLoaded.C81_provided_new",
    "Verif.Props.NotLoaded.C81_provided_existing",
    "Verif.Props.NotLoaded.C81_top_level_witness",
    "Verif.Props.NotLoaded.C81_capture_witness",
    "Verif.Props.NotLoaded.C81_false_positive_witness",
    "Verif.Props.NotLoaded.C81_wrong_binding_witness",
    "Verif.Props.NotLoaded.C81_repository",
    "Verif.Props.NotLoaded.C81_cache_witness"
   ],
   "note": "Exact for all well-shaped files without nested file nodes."
  },
  {
   "property": "C82",
   "status": "proved",
   "theorems": [
    "Verif.Props.ApiWarn.C82_cfg_data",
    "Verif.Props.ApiWarn.C82_cfg_host",
    "Verif.Props.ApiWarn.C82_cfg_only",
    "Verif.Props.ApiWarn.C82_cfg_corrupts",
    "Verif.Props.ApiWarn.C82_negate",
    "Verif.Props.ApiWarn.C82_non_empty",
    "Verif.Props.ApiWarn.C82_non_empty_witness",
    "Verif.Props.ApiWarn.C82_single_file",
    "Verif.Props.ApiWarn.C82_single_file_witness",
    "Verif.Props.ApiWarn.C82_reported"
   ],
   "note": "The negation is wrong for variables, and the cfg check corrupts the call it reports: both are stated exactly."
  },
  {
   "property": "C83",
   "status": "proved",
   "theorems": [
    "Verif.Props.ApiWarn.C83_reported",
    "Verif.Props.ApiWarn.C83_others",
    "Verif.Props.ApiWarn.C83_same_call",
    "Verif.Props.ApiWarn.C83_again",
    "Verif.Props.ApiWarn.C83_applied",
    "Verif.Props.ApiWarn.C83_order_witness"
   ],
   "note": "Exact for legal argument lists."
  },
  {
   "property": "C84",
   "status": "proved",
   "theorems": [
    "Verif.Props.BuildWarn.C84_duplicated",
    "Verif.Props.BuildWarn.C84_names_unique",
    "Verif.Props.BuildWarn.C84_constant_glob",
    "Verif.Props.BuildWarn.C84_native_reported",
    "Verif.Props.BuildWarn.C84_native_fix",
    "Verif.Props.BuildWarn.C84_native_none",
    "Verif.Props.BuildWarn.C84_native_twice_witness",
    "Verif.Props.BuildWarn.C84_native_package",
    "Verif.Props.BuildWarn.C84_print",
    "Verif.Props.BuildWarn.C84_args_kwargs",
    "Verif.Props.BuildWarn.C84_positional",
    "Verif.Props.BuildWarn.C84_duplicated_example"
   ],
   "note": "Exact lists of findings."
  },
  {
   "property": "C85",
   "status": "proved",
   "theorems": [
    "Verif.Props.NameWarn.C85_visibility",
    "Verif.Props.NameWarn.C85_visible_inside",
    "Verif.Props.NameWarn.C85_visibility_examples",
    "Verif.Props.NameWarn.C85_confusing",
    "Verif.Props.NameWarn.C85_confusing_examples",
    "Verif.Props.NameWarn.C85_conventions",
    "Verif.Props.NameWarn.C85_conventions_examples"
   ],
   "note": "Exact lists of findings."
  },
  {
   "property": "C86",
   "status": "proved",
   "theorems": [
    "Verif.Props.DocWarn.C86_module",
    "Verif.Props.DocWarn.C86_count",
    "Verif.Props.DocWarn.C86_function",
    "Verif.Props.DocWarn.C86_documented",
    "Verif.Props.DocWarn.C86_header",
    "Verif.Props.DocWarn.C86_return",
    "Verif.Props.DocWarn.C86_args",
    "Verif.Props.DocWarn.C86_iter_exists",
    "Verif.Props.DocWarn.C86_args_example",
    "Verif.Props.DocWarn.C86_empty_name_witness",
    "Verif.Props.DocWarn.C86_second_section_witness",
    "Verif.Props.DocWarn.C86_function_example",
    "Verif.Props.DocWarn.C86_return_example"
   ],
   "note": "Exact findings, except for messages."
  },
  {
   "property": "C87",
   "status": "proved",
   "theorems": [
    "Verif.Props.UnusedDeps.C87_manifest",
    "Verif.Props.UnusedDeps.C87_direct",
    "Verif.Props.UnusedDeps.C87_direct_crash",
    "Verif.Props.UnusedDeps.C87_unused",
    "Verif.Props.UnusedDeps.C87_unused_once",
    "Verif.Props.UnusedDeps.C87_extra_action_witness",
    "Verif.Props.UnusedDeps.C87_commands",
    "Verif.Props.UnusedDeps.C87_commands_crash",
    "Verif.Props.UnusedDeps.C87_run",
    "Verif.Props.UnusedDeps.C87_no_input",
    "Verif.Props.UnusedDeps.C87_run_example",
    "Verif.Props.UnusedDeps.C87_key_witness",
    "Verif.Props.UnusedDeps.C87_crash_witness"
   ],
   "note": "Running the build tool, decoding protobufs and the text of the commands are not modelled."
  },
  {
   "property": "C88",
   "status": "proved",
   "theorems": [
    "Verif.Props.Files.C88_absolute",
    "Verif.Props.Files.C88_relative",
    "Verif.Props.Files.C88_relative_file",
    "Verif.Props.Files.C88_relative_file_example",
    "Verif.Props.Files.C88_repository",
    "Verif.Props.Files.C88_opened",
    "Verif.Props.Files.C88_opened_other",
    "Verif.Props.Files.C88_one_file_witness",
    "Verif.Props.Files.C88_wrong_file_witness",
    "Verif.Props.Files.C88_example"
   ],
   "note": "Reading and parsing WORKSPACE is a parameter; paths are cleaned."
  },
  {
   "property": "C89",
   "status": "proved",
   "theorems": [
    "Verif.Props.Files.C89_tree",
    "Verif.Props.Files.C89_tree_once",
    "Verif.Props.Files.C89_expand",
    "Verif.Props.Files.C89_expand_fails",
    "Verif.Props.Files.C89_expand_once",
    "Verif.Props.Files.C89_link_witness",
    "Verif.Props.Files.C89_example",
    "Verif.Props.Files.C89_example_proper",
    "Verif.Props.Files.C89_pattern"
   ],
   "note": "The file system does not change during the search; the order of the files is not part of the claim."
  },
  {
   "property": "C90",
   "status": "proved",
   "theorems": [
    "Verif.Props.Types.C90_types",
    "Verif.Props.Types.C90_nodes",
    "Verif.Props.Types.C90_sound",
    "Verif.Props.Types.C90_example",
    "Verif.Props.Types.C90_example_ctx",
    "Verif.Props.Types.C90_witness"
   ],
   "note": "The assumptions of soundness are those that the code makes silently (a variable has one type, built-in functions are not shadowed, operators keep types)."
  },
  {
   "property": "C91",
   "status": "proved",
   "theorems": [
    "Verif.Props.TypeWarn.C91_dict_concat",
    "Verif.Props.TypeWarn.C91_named_default",
    "Verif.Props.TypeWarn.C91_string_iteration",
    "Verif.Props.TypeWarn.C91_depset_iteration",
    "Verif.Props.TypeWarn.C91_depset_union",
    "Verif.Props.TypeWarn.C91_division",
    "Verif.Props.TypeWarn.C91_fix_faithful",
    "Verif.Props.TypeWarn.C91_fix_complete",
    "Verif.Props.TypeWarn.C91_chain_witness",
    "Verif.Props.TypeWarn.C91_append",
    "Verif.Props.TypeWarn.C91_append_comments_witness",
    "Verif.Props.TypeWarn.C91_division_sound",
    "Verif.Props.TypeWarn.C91_fix_example"
   ],
   "note": "The fixes of depset iteration (to_list) are not modelled."
  },
  {
   "property": "C92",
   "status": "proved",
   "theorems": [
    "Verif.Props.ActionsWarn.C92_actions_faithful",
    "Verif.Props.ActionsWarn.C92_actions_complete",
    "Verif.Props.ActionsWarn.C92_actions_witness",
    "Verif.Props.ActionsWarn.C92_actions_example",
    "Verif.Props.ActionsWarn.C92_output_group",
    "Verif.Props.ActionsWarn.C92_output_group_witness",
    "Verif.Props.ActionsWarn.C92_args_add",
    "Verif.Props.ActionsWarn.C92_args_add_example"
   ],
   "note": "The file type test (only .bzl files) is not part of the model. args.add is modelled at one call, not for calls nested in each other's parameters."
  },
  {
   "property": "C93",
   "status": "proved",
   "theorems": [
    "Verif.Props.ActionsWarn.C93_attributes",
    "Verif.Props.ActionsWarn.C93_depset_items",
    "Verif.Props.ActionsWarn.C93_impl_return",
    "Verif.Props.ActionsWarn.C93_provider",
    "Verif.Props.ActionsWarn.C93_attr_names",
    "Verif.Props.ActionsWarn.C93_file_type",
    "Verif.Props.ActionsWarn.C93_global_variable",
    "Verif.Props.ActionsWarn.C93_example"
   ],
   "note": "The replacements of globalVariableUsageCheck (another name for the identifier) are not modelled."
  },
  {
   "property": "C94",
   "status": "proved",
   "theorems": [
    "Verif.Props.Suffix.C94_suffix",
    "Verif.Props.Suffix.C94_example"
   ],
   "note": "bytes.TrimSpace is modelled for ASCII white space only."
  },
  {
   "property": "C95",
   "status": "proved",
   "theorems": [
    "Verif.Props.StmtWarn.C95_no_effect",
    "Verif.Props.StmtWarn.C95_redefined",
    "Verif.Props.StmtWarn.C95_nested_depsets",
    "Verif.Props.StmtWarn.C95_no_effect_example",
    "Verif.Props.StmtWarn.C95_redefined_example",
    "Verif.Props.StmtWarn.C95_nested_example"
   ],
   "note": "Messages are modelled as three kinds."
  },
  {
   "property": "C96",
   "status": "proved",
   "theorems": [
    "Verif.Props.StmtWarn.C96_deprecated",
    "Verif.Props.StmtWarn.C96_example"
   ],
   "note": "The file reader is a parameter; its cache is not modelled."
  },
  {
   "property": "C97",
   "status": "proved",
   "theorems": [
    "Verif.Props.Spans.C97_spans",
    "Verif.Props.Spans.C97_within",
    "Verif.Props.Spans.C97_disjoint",
    "Verif.Props.Spans.C97_start",
    "Verif.Props.Spans.C97_example",
    "Verif.Props.Spans.C97_backslash"
   ],
   "note": "The names in load statements are left out of the children: their positions are computed from the unquoted text. A number such as 1.5 is located by its first token. Files that end with a backslash are excluded (C97_backslash shows why)."
  },
  {
   "property": "C98",
   "status": "proved",
   "theorems": [
    "Verif.Props.UseRepo.C98_command",
    "Verif.Props.UseRepo.C98_idempotent",
    "Verif.Props.UseRepo.C98_other_files",
    "Verif.Props.UseRepo.C98_asks",
    "Verif.Props.UseRepo.C98_panics",
    "Verif.Props.UseRepo.C98_empty_calls",
    "Verif.Props.UseRepo.C98_example",
    "Verif.Props.UseRepo.C98_own_label_witness",
    "Verif.Props.UseRepo.C98_remove_example"
   ],
   "note": "Arguments are assumed non-empty strings; the exception of C98_asks is the panic of C98_panics."
  },
  {
   "property": "C99",
   "status": "proved",
   "theorems": [
    "Verif.Props.SortWhere.C99_node",
    "Verif.Props.SortWhere.C99_untouched",
    "Verif.Props.SortWhere.C99_bzl",
    "Verif.Props.SortWhere.C99_use_repo",
    "Verif.Props.SortWhere.C99_docstring"
   ],
   "note": "What sorting and deduplicating one list means is the subject of C10 to C13, what laying out a docstring means that of C22; that every node is visited that of C26."
  },
  {
   "property": "C100",
   "status": "proved",
   "theorems": [
    "Verif.CommentCommand.C100_comment_rule",
    "Verif.CommentCommand.C100_comment_attribute",
    "Verif.CommentCommand.C100_comment_value",
    "Verif.CommentCommand.C100_remove_rule",
    "Verif.CommentCommand.C100_remove_attribute",
    "Verif.CommentCommand.C100_remove_value",
    "Verif.CommentCommand.C100_print_rule",
    "Verif.CommentCommand.C100_print_attribute",
    "Verif.CommentCommand.C100_print_value",
    "Verif.CommentCommand.C100_read_back_rule",
    "Verif.CommentCommand.C100_read_back_value",
    "Verif.CommentCommand.C100_removed",
    "Verif.CommentCommand.C100_attribute_unseen",
    "Verif.CommentCommand.C100_attribute_joined"
   ],
   "note": "C100_attribute_unseen and C100_attribute_joined are findings: the comment of an attribute is not found by print_comment in the same run, and is added to instead of replaced in the next."
  },
  {
   "property": "C101",
   "status": "partial",
   "theorems": [
    "Verif.LoadCommand.C101_new_load",
    "Verif.LoadCommand.C101_replace_load_partial",
    "Verif.LoadCommand.C101_new_load_targets_partial",
    "Verif.LoadCommand.C101_later_targets",
    "Verif.LoadCommand.C101_rename_lost"
   ],
   "note": "Proved for the first target, and for all targets if no argument contains `=`; false in the code for later targets otherwise (C101_later_targets, C101_rename_lost). replace_load: loads of which two or more symbols are replaced at once are excluded, as in C34."
  },
  {
   "property": "C102",
   "status": "proved",
   "theorems": [
    "Verif.LoadSubstitute.C102_substitute_load",
    "Verif.LoadSubstitute.C102_symbols",
    "Verif.LoadSubstitute.C102_pieces"
   ],
   "note": ""
  },
  {
   "property": "C103",
   "status": "proved",
   "theorems": [
    "Verif.PrintCommand.C103_print"
   ],
   "note": "The warning on stderr for a missing attribute is not modelled."
  }
 ]
}