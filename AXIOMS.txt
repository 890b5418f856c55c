'Verif.Props.Quote.C01_unquote_quote' depends on axioms: [propext, Classical.choice, Quot.sound]
'Verif.Props.Quote.C01_quote_injective' depends on axioms: [propext, Classical.choice, Quot.sound]
'Verif.Props.Quote.C02_quote_single_token' depends on axioms: [propext, Quot.sound]
'Verif.Props.Quote.C02_exception_witness' depends on axioms: [propext, Quot.sound]
'Verif.Props.Quote.C02_quote_ascii' depends on axioms: [propext, Quot.sound]
'Verif.Props.Quote.C03_print_string' depends on axioms: [propext, Classical.choice, Quot.sound]
'Verif.Props.Quote.C03_panic_witness' depends on axioms: [propext, Quot.sound]
'Verif.Props.Quote.C03_print_string_crash_iff' depends on axioms: [propext, Classical.choice, Quot.sound]
'Verif.Props.Labels.C04_parse_format_parse' depends on axioms: [propext, Classical.choice, Quot.sound]
'Verif.Props.Labels.C04_parse_format' depends on axioms: [propext, Classical.choice, Quot.sound]
'Verif.Props.Labels.C04_format_injective' depends on axioms: [propext, Classical.choice, Quot.sound]
'Verif.Props.Labels.C05_shorten_denotes_iff' depends on axioms: [propext, Classical.choice, Quot.sound]
'Verif.Props.Labels.C05_shorten_preserves' depends on axioms: [propext, Classical.choice, Quot.sound]
'Verif.Props.Labels.C05_shorten_relative' depends on axioms: [propext]
'Verif.Props.Labels.C05_exception_witness' does not depend on any axioms
'Verif.Props.Labels.C06_shorten_forms' depends on axioms: [propext]
'Verif.Props.Labels.C06_shorten_idempotent' depends on axioms: [propext, Classical.choice, Quot.sound]
'Verif.Props.Labels.C06_shorten_canonical' depends on axioms: [propext]
'Verif.Props.Labels.C07_equal_equivalence' depends on axioms: [propext, Quot.sound]
'Verif.Props.Labels.C07_equal_iff_denotes' depends on axioms: [propext]
'Verif.Props.Labels.C07_equal_colon' depends on axioms: [propext, Classical.choice, Quot.sound]
'Verif.Props.Labels.C07_equal_long_short' depends on axioms: [propext, Classical.choice, Quot.sound]
'Verif.Props.Labels.C07_equal_default_target' depends on axioms: [propext, Quot.sound]
'Verif.Props.Diff.C08_difference_exact' depends on axioms: [propext, Classical.choice, Quot.sound]
'Verif.Props.Diff.C08_difference_tight' depends on axioms: [propext, Classical.choice, Quot.sound]
'Verif.Props.Diff.C09_suggest_effect' depends on axioms: [propext, Classical.choice, Quot.sound]
'Verif.Props.Diff.C09_suggest_rolls_back' depends on axioms: [propext, Classical.choice, Quot.sound]
'Verif.Props.Diff.C09_rolls_back_iff' depends on axioms: [propext, Classical.choice, Quot.sound]
'Verif.Props.Diff.C09_rewriting_formatter_witness' does not depend on any axioms
'Verif.Props.SortStrings.C10_strict_total_order' depends on axioms: [propext, Quot.sound]
'Verif.Props.SortStrings.C10_documented_order' depends on axioms: [propext, Quot.sound]
'Verif.Props.SortStrings.C10_algorithm_independent' depends on axioms: [propext, Classical.choice, Quot.sound]
'Verif.Props.SortStrings.C11_rearranges' depends on axioms: [propext, Classical.choice, Quot.sound]
'Verif.Props.SortStrings.C11_values_kept' depends on axioms: [propext, Classical.choice, Quot.sound]
'Verif.Props.SortStrings.C11_every_chunk_sorted_partial' depends on axioms: [propext, Classical.choice, Quot.sound]
'Verif.Props.SortStrings.C11_unsorted_witness' depends on axioms: [propext]
'Verif.Props.SortStrings.C12_idempotent_partial' depends on axioms: [propext, Classical.choice, Quot.sound]
'Verif.Props.SortStrings.C12_idempotent_distinct' depends on axioms: [propext, Classical.choice, Quot.sound]
'Verif.Props.SortStrings.C12_not_idempotent_witness' depends on axioms: [propext]
'Verif.Props.Dedup.C13_keeps_first_occurrences' depends on axioms: [propext, Classical.choice, Quot.sound]
'Verif.Props.Dedup.C13_comments' depends on axioms: [propext, Classical.choice, Quot.sound]
'Verif.Props.Dedup.C13_values' depends on axioms: [propext, Classical.choice, Quot.sound]
'Verif.Props.Dedup.C13_lost_comment_witness' depends on axioms: [propext]
'Verif.Props.CallArgs.C14_sorts_trailing_keywords' depends on axioms: [propext, Classical.choice, Quot.sound]
'Verif.Props.CallArgs.C14_algorithm_independent' depends on axioms: [propext, Classical.choice, Quot.sound]
'Verif.Props.CallArgs.C14_idempotent' depends on axioms: [propext, Classical.choice, Quot.sound]
'Verif.Props.SortWhere.C14_node' depends on axioms: [propext, Classical.choice, Quot.sound]
'Verif.Props.ReorderArgs.C15_reorder' depends on axioms: [propext, Classical.choice, Quot.sound]
'Verif.Props.ReorderArgs.C15_idempotent' depends on axioms: [propext, Classical.choice, Quot.sound]
'Verif.Props.ReorderArgs.C15_legal_untouched' depends on axioms: [propext, Classical.choice, Quot.sound]
'Verif.Props.SortWhere.C15_node' depends on axioms: [propext, Classical.choice, Quot.sound]
'Verif.Props.LoadTop.C16_moves_loads' depends on axioms: [propext, Classical.choice, Quot.sound]
'Verif.Props.LoadTop.C16_order' depends on axioms: [propext, Classical.choice, Quot.sound]
'Verif.Props.LoadTop.C16_idempotent' depends on axioms: [propext, Classical.choice, Quot.sound]
'Verif.Props.LoadTop.C16_disabled' depends on axioms: [propext, Classical.choice, Quot.sound]
'Verif.Props.LoadTop.C16_enabled' depends on axioms: [propext, Classical.choice, Quot.sound]
'Verif.Props.LoadMerge.C17_bindings_kept' depends on axioms: [propext, Classical.choice, Quot.sound]
'Verif.Props.LoadMerge.C17_bindings_in_order' depends on axioms: [propext, Classical.choice, Quot.sound]
'Verif.Props.LoadMerge.C17_other_statements' depends on axioms: [propext, Classical.choice, Quot.sound]
'Verif.Props.LoadMerge.C17_one_load_per_module' depends on axioms: [propext, Classical.choice, Quot.sound]
'Verif.Props.LoadMerge.C17_idempotent' depends on axioms: [propext, Classical.choice, Quot.sound]
'Verif.Props.LoadMerge.C17_lost_comment_witness' depends on axioms: [propext]
'Verif.Props.LoadSort.C18_places' depends on axioms: [propext, Quot.sound]
'Verif.Props.LoadSort.C18_permutes_within_stretches' depends on axioms: [propext, Classical.choice, Quot.sound]
'Verif.Props.LoadSort.C18_file' depends on axioms: [propext]
'Verif.Props.LoadSort.C18_file_permutes' depends on axioms: [propext]
'Verif.Props.LoadSort.C18_sorted_partial' depends on axioms: [propext, Classical.choice, Quot.sound]
'Verif.Props.LoadSort.C19_not_transitive_witness' depends on axioms: [propext]
'Verif.Props.LoadSort.C19_irreflexive_asymmetric' depends on axioms: [propext, Quot.sound]
'Verif.Props.LoadSort.C19_strict_weak_order_partial' depends on axioms: [propext, Classical.choice, Quot.sound]
'Verif.Props.LoadArgs.C20_preserves_bindings' depends on axioms: [propext, Classical.choice, Quot.sound]
'Verif.Props.LoadArgs.C20_any_load' depends on axioms: [propext, Classical.choice, Quot.sound]
'Verif.Props.LoadArgs.C20_idempotent' depends on axioms: [propext, Classical.choice, Quot.sound]
'Verif.Props.LoadArgs.C20_statement' depends on axioms: [propext, Quot.sound]
'Verif.Props.LoadArgs.C20_duplicate_kept_witness' does not depend on any axioms
'Verif.Props.Numbers.C21_octal_value' depends on axioms: [propext]
'Verif.Props.Numbers.C21_octal_others' depends on axioms: [propext]
'Verif.Props.Numbers.C21_octal_idempotent' depends on axioms: [propext]
'Verif.Props.Numbers.C21_float_value' depends on axioms: [propext, Classical.choice, Quot.sound]
'Verif.Props.Numbers.C21_float_idempotent' depends on axioms: [propext, Quot.sound]
'Verif.Props.Numbers.C21_float_others' depends on axioms: [propext]
'Verif.Props.Numbers.C21_octal_tree' depends on axioms: [propext, Classical.choice, Quot.sound]
'Verif.Props.Numbers.C21_float_tree' depends on axioms: [propext, Classical.choice, Quot.sound]
'Verif.Props.Numbers.C21_zero_exponent_witness' does not depend on any axioms
'Verif.Props.Numbers.C21_leading_zero_float_witness' depends on axioms: [propext]
'Verif.Props.Docstring.C22_only_spaces_change' depends on axioms: [propext, Classical.choice, Quot.sound]
'Verif.Props.Docstring.C22_idempotent' depends on axioms: [propext, Quot.sound]
'Verif.Props.Docstring.C22_backslash_witness' depends on axioms: [propext]
'Verif.Props.Parens.C23_only_redundant' depends on axioms: [propext, Classical.choice, Quot.sound]
'Verif.Props.Parens.C23_complete' depends on axioms: [propext, Classical.choice, Quot.sound]
'Verif.Props.FixLabels.C24_label_denotes' depends on axioms: [propext, Classical.choice, Quot.sound]
'Verif.Props.FixLabels.C24_unusual_witness' depends on axioms: [propext]
'Verif.Props.FixLabels.C24_join' depends on axioms: [propext]
'Verif.Props.FixLabels.C24_element' depends on axioms: [propext, Classical.choice, Quot.sound]
'Verif.Props.FixLabels.C24_list' depends on axioms: [propext]
'Verif.Props.FixLabels.C24_sum_witness' depends on axioms: [propext]
'Verif.Props.FixLabels.C24_label_attributes_only' depends on axioms: [propext, Classical.choice, Quot.sound]
'Verif.Props.LabelRewrite.C24_shortened' depends on axioms: [propext, Classical.choice, Quot.sound]
'Verif.Props.LabelRewrite.C24_only_shortened' depends on axioms: [propext, Quot.sound]
'Verif.Props.LabelRewrite.C24_own_package' depends on axioms: [propext, Classical.choice, Quot.sound]
'Verif.Props.LabelRewrite.C24_strip' depends on axioms: [propext, Quot.sound]
'Verif.Props.LabelRewrite.C24_dir' depends on axioms: [propext, Classical.choice, Quot.sound]
'Verif.Props.LabelRewrite.C24_file' depends on axioms: [propext, Classical.choice, Quot.sound]
'Verif.Props.LabelRewrite.C24_file_example' depends on axioms: [propext]
'Verif.Props.Rewriter.C25_exact' depends on axioms: [propext, Classical.choice, Quot.sound]
'Verif.Props.Rewriter.C25_none' depends on axioms: [propext, Classical.choice, Quot.sound]
'Verif.Props.Rewriter.C25_empty_set' depends on axioms: [propext, Classical.choice, Quot.sound]
'Verif.Props.Rewriter.C25_all_disabled' depends on axioms: [propext, Classical.choice, Quot.sound]
'Verif.Props.Rewriter.C25_depends_only_on_applicable' depends on axioms: [propext, Classical.choice, Quot.sound]
'Verif.Props.Rewriter.C25_leave_alone_callsort' depends on axioms: [propext, Classical.choice, Quot.sound]
'Verif.Props.Rewriter.C25_leave_alone_label' depends on axioms: [propext, Classical.choice, Quot.sound]
'Verif.Props.Rewriter.C25_leave_alone_subtree' depends on axioms: [propext, Classical.choice, Quot.sound]
'Verif.Props.Walk.C26_walk_visits_every_node_once' depends on axioms: [propext, Classical.choice, Quot.sound]
'Verif.Props.Walk.C26_walk_log' depends on axioms: [propext, Classical.choice, Quot.sound]
'Verif.Props.Walk.C26_stack_is_ancestors' depends on axioms: [propext, Classical.choice, Quot.sound]
'Verif.Props.Walk.C26_interruptable' depends on axioms: [propext, Classical.choice, Quot.sound]
'Verif.Props.Walk.C26_edit_identity' depends on axioms: [propext, Classical.choice, Quot.sound]
'Verif.Props.Walk.C26_weak_slot_witness' depends on axioms: [propext]
'Verif.Props.Attr.C27_get' depends on axioms: [propext]
'Verif.Props.Attr.C27_set' depends on axioms: [propext, Quot.sound]
'Verif.Props.Attr.C27_get_set' depends on axioms: [propext, Classical.choice, Quot.sound]
'Verif.Props.Attr.C27_get_set_other' depends on axioms: [propext, Classical.choice, Quot.sound]
'Verif.Props.Attr.C27_delete' depends on axioms: [propext]
'Verif.Props.Attr.C27_get_delete' depends on axioms: [propext, Classical.choice, Quot.sound]
'Verif.Props.Attr.C27_rename' depends on axioms: [propext, Quot.sound]
'Verif.Props.Attr.C27_rename_value' depends on axioms: [propext, Classical.choice, Quot.sound]
'Verif.Props.Attr.C27_keys' depends on axioms: [propext, Classical.choice, Quot.sound]
'Verif.Props.Attr.C28_get' depends on axioms: [propext]
'Verif.Props.Attr.C28_set' depends on axioms: [propext, Classical.choice, Quot.sound]
'Verif.Props.Attr.C28_get_set' depends on axioms: [propext, Classical.choice, Quot.sound]
'Verif.Props.Attr.C28_delete' depends on axioms: [propext, Classical.choice, Quot.sound]
'Verif.Props.Attr.C28_get_delete' depends on axioms: [propext, Classical.choice, Quot.sound]
'Verif.Props.Attr.C28_delete_loses_nonstring' depends on axioms: [propext]
'Verif.Props.ListEdit.C29_exact' depends on axioms: [propext, Classical.choice, Quot.sound]
'Verif.Props.ListEdit.C29_exact_other' depends on axioms: [propext, Quot.sound]
'Verif.Props.ListEdit.C29_nil' depends on axioms: [propext]
'Verif.Props.ListEdit.C29_elements' depends on axioms: [propext, Classical.choice, Quot.sound]
'Verif.Props.ListEdit.C29_idempotent' depends on axioms: [propext, Classical.choice, Quot.sound]
'Verif.Props.ListEdit.C30_insert' depends on axioms: [propext, Classical.choice, Quot.sound]
'Verif.Props.ListEdit.C30_sorted' depends on axioms: [propext, Classical.choice, Quot.sound]
'Verif.Props.ListEdit.C31_exact' depends on axioms: [propext, Classical.choice, Quot.sound]
'Verif.Props.ListEdit.C31_elements' depends on axioms: [propext, Classical.choice, Quot.sound]
'Verif.Props.ListEdit.C31_result' depends on axioms: [propext, Classical.choice, Quot.sound]
'Verif.Props.Select.C31_attribute' depends on axioms: [propext, Classical.choice, Quot.sound]
'Verif.Props.ListEdit.C32_exact' depends on axioms: [propext, Quot.sound]
'Verif.Props.ListEdit.C32_result' depends on axioms: [propext, Classical.choice, Quot.sound]
'Verif.Props.Select.C33_simplify' depends on axioms: [propext, Quot.sound]
'Verif.Props.Select.C33_add_present' depends on axioms: [propext, Classical.choice, Quot.sound]
'Verif.Props.Select.C33_resolve' depends on axioms: [propext, Classical.choice, Quot.sound]
'Verif.Props.Select.C33_copies_nonstrings' depends on axioms: [propext]
'Verif.Props.Select.C33_simplified' depends on axioms: [propext, Classical.choice, Quot.sound]
'Verif.Props.LoadEdit.C34_append' depends on axioms: [propext, Classical.choice, Quot.sound]
'Verif.Props.LoadEdit.C34_new' depends on axioms: [propext, Classical.choice, Quot.sound]
'Verif.Props.LoadEdit.C34_panic' depends on axioms: [propext]
'Verif.Props.LoadEdit.C34_available' depends on axioms: [propext, Classical.choice, Quot.sound]
'Verif.Props.LoadEdit.C34_idempotent' depends on axioms: [propext, Classical.choice, Quot.sound]
'Verif.Props.LoadEdit.C34_replace_partial' depends on axioms: [propext, Classical.choice, Quot.sound]
'Verif.Props.LoadEdit.C34_replace_no_empty' depends on axioms: [propext, Classical.choice, Quot.sound]
'Verif.Props.LoadEdit.C34_replace_witness' depends on axioms: [propext]
'Verif.Props.LoadEdit.C34_other_origin_witness' depends on axioms: [propext]
'Verif.Props.Rules.C35_kind' depends on axioms: [propext, Classical.choice, Quot.sound]
'Verif.Props.Rules.C35_implicit_name' depends on axioms: [propext, Classical.choice, Quot.sound]
'Verif.Props.Rules.C35_delete_by_name' depends on axioms: [propext, Classical.choice, Quot.sound]
'Verif.Props.Rules.C35_delete_by_kind' depends on axioms: [propext, Classical.choice, Quot.sound]
'Verif.Props.Rules.C35_delete_rule' depends on axioms: [propext]
'Verif.Props.Rules.C35_remove_empty_package' depends on axioms: [propext, Classical.choice, Quot.sound]
'Verif.Props.Rules.C35_delrules_partial' depends on axioms: [propext, Classical.choice, Quot.sound]
'Verif.Props.Rules.C35_insert_after' depends on axioms: [propext]
'Verif.Props.Rules.C35_insert_at_end' depends on axioms: [propext, Classical.choice, Quot.sound]
'Verif.Props.Rules.C35_insert_same_kind' depends on axioms: [propext, Quot.sound]
'Verif.Props.Rules.C35_package_declaration' depends on axioms: [propext, Quot.sound]
'Verif.Props.Rules.C35_delrules_witness' depends on axioms: [propext]
'Verif.Props.UnusedLoads.C36_used_symbols' depends on axioms: [propext, Quot.sound]
'Verif.Props.UnusedLoads.C36_statements' depends on axioms: [propext, Classical.choice, Quot.sound]
'Verif.Props.UnusedLoads.C36_used_kept' depends on axioms: [propext, Classical.choice, Quot.sound]
'Verif.Props.UnusedLoads.C36_only_used' depends on axioms: [propext, Classical.choice, Quot.sound]
'Verif.Props.UnusedLoads.C36_meaning' depends on axioms: [propext, Classical.choice, Quot.sound]
'Verif.Props.UnusedLoads.C36_meaning_witness' depends on axioms: [propext]
'Verif.Props.UnusedLoads.C36_types_witness' depends on axioms: [propext]
'Verif.Props.Split.C37_split' depends on axioms: [propext, Quot.sound]
'Verif.Props.Split.C37_split_iff' depends on axioms: [propext, Quot.sound]
'Verif.Props.Split.C37_words_nonempty' depends on axioms: [propext, Quot.sound]
'Verif.Props.Split.C37_line' depends on axioms: [propext, Quot.sound]
'Verif.Props.Split.C37_parse_commands' depends on axioms: [propext, Quot.sound]
'Verif.Props.Split.C37_append_commands' depends on axioms: [propext, Classical.choice, Quot.sound]
'Verif.Props.Split.C37_lines' depends on axioms: [propext, Quot.sound]
'Verif.Props.Buildozer.C38_schedule_independent' depends on axioms: [propext, Classical.choice, Quot.sound]
'Verif.Props.Buildozer.C38_no_deadlock' depends on axioms: [propext, Classical.choice, Quot.sound]
'Verif.Props.Buildozer.C38_terminates' depends on axioms: [propext, Classical.choice, Quot.sound]
'Verif.Props.Buildozer.C38_exit_code' depends on axioms: [propext, Quot.sound]
'Verif.Props.Buildozer.C38_alias_witness' depends on axioms: [propext, Classical.choice, Quot.sound]
'Verif.Props.Buildozer.C39_events_exist' does not depend on any axioms
'Verif.Props.Buildozer.C39_failed_untouched' depends on axioms: [propext, Quot.sound]
'Verif.Props.Buildozer.C39_parse_error' does not depend on any axioms
'Verif.Props.Buildozer.C39_written_iff' depends on axioms: [propext, Quot.sound]
'Verif.Props.Buildozer.C39_reported' depends on axioms: [propext, Quot.sound]
'Verif.Props.Buildifier.C40_in_order' depends on axioms: [propext, Classical.choice, Quot.sound]
'Verif.Props.Buildifier.C40_contents' depends on axioms: [propext, Classical.choice, Quot.sound]
'Verif.Props.Buildifier.C40_no_deadlock' depends on axioms: [propext, Classical.choice, Quot.sound]
'Verif.Props.Buildifier.C40_terminates' depends on axioms: [propext, Classical.choice, Quot.sound]
'Verif.Props.Buildifier.C40_workers' depends on axioms: [propext, Quot.sound]
'Verif.Props.Buildifier.C40_exit_code' depends on axioms: [propext, Classical.choice, Quot.sound]
'Verif.Props.Buildifier.C40_duplicate_witness' depends on axioms: [propext, Classical.choice, Quot.sound]
'Verif.Props.Buildifier.C41_parse_error' does not depend on any axioms
'Verif.Props.Buildifier.C41_check' depends on axioms: [propext, Quot.sound]
'Verif.Props.Buildifier.C41_fix' depends on axioms: [propext]
'Verif.Props.Buildifier.C41_diff' depends on axioms: [propext, Quot.sound]
'Verif.Props.Buildifier.C41_print' depends on axioms: [propext]
'Verif.Props.Buildifier.C41_only_fix_writes' depends on axioms: [propext]
'Verif.Props.Buildifier.C41_stdin' depends on axioms: [propext]
'Verif.Props.Buildifier.C41_run_check' depends on axioms: [propext, Classical.choice, Quot.sound]
'Verif.Props.Buildifier.C41_unreadable_witness' does not depend on any axioms
'Verif.Props.Buildifier.C42_modes' depends on axioms: [propext]
'Verif.Props.Buildifier.C42_type_format' depends on axioms: [propext]
'Verif.Props.Buildifier.C42_warnings' depends on axioms: [propext, Classical.choice, Quot.sound]
'Verif.Props.Buildifier.C42_twice_witness' depends on axioms: [propext]
'Verif.Props.Buildifier.C42_config' depends on axioms: [propext, Classical.choice, Quot.sound]
'Verif.Props.Wspace.C43_find' depends on axioms: [propext, Classical.choice, Quot.sound]
'Verif.Props.Wspace.C43_nearest' depends on axioms: [propext, Classical.choice, Quot.sound]
'Verif.Props.Wspace.C43_deterministic' depends on axioms: [propext, Classical.choice, Quot.sound]
'Verif.Props.Wspace.C43_workspace_root' depends on axioms: [propext, Classical.choice, Quot.sound]
'Verif.Props.Wspace.C43_split' depends on axioms: [propext, Classical.choice, Quot.sound]
'Verif.Props.Wspace.C43_markers' depends on axioms: [propext, Quot.sound]
'Verif.Props.Bzlmod.C44_use_repos' depends on axioms: [propext, Classical.choice, Quot.sound]
'Verif.Props.Bzlmod.C44_add' depends on axioms: [propext, Classical.choice, Quot.sound]
'Verif.Props.Bzlmod.C44_add_used' depends on axioms: [propext, Classical.choice, Quot.sound]
'Verif.Props.Bzlmod.C44_remove' depends on axioms: [propext, Classical.choice, Quot.sound]
'Verif.Props.Bzlmod.C44_remove_used' depends on axioms: [propext, Classical.choice, Quot.sound]
'Verif.Props.Bzlmod.C44_proxies' depends on axioms: [propext, Classical.choice, Quot.sound]
'Verif.Props.Bzlmod.C44_all_proxies' depends on axioms: [propext, Classical.choice, Quot.sound]
'Verif.Props.Bzlmod.C44_new' depends on axioms: [propext, Classical.choice, Quot.sound]
'Verif.Props.Bzlmod.C44_command' depends on axioms: [propext, Classical.choice, Quot.sound]
'Verif.Props.Bzlmod.C44_duplicate_witness' depends on axioms: [propext]
'Verif.Props.Bzlmod.C44_apparent_name' depends on axioms: [propext, Quot.sound]
'Verif.Props.Bzlmod.C44_same_label' depends on axioms: [propext, Classical.choice, Quot.sound]
'Verif.Props.Bzlmod.C44_same_label_example' does not depend on any axioms
'Verif.Props.BzlmodNames.C45_rules' depends on axioms: [propext, Classical.choice, Quot.sound]
'Verif.Props.BzlmodNames.C45_file' depends on axioms: [propext, Classical.choice, Quot.sound]
'Verif.Props.BzlmodNames.C45_traversal' depends on axioms: [propext, Classical.choice, Quot.sound]
'Verif.Props.BzlmodNames.C45_mapping' depends on axioms: [propext, Classical.choice, Quot.sound]
'Verif.Props.BzlmodNames.C45_path' depends on axioms: [propext, Classical.choice, Quot.sound]
'Verif.Props.BzlmodNames.C45_clean' depends on axioms: [propext, Quot.sound]
'Verif.Props.Comments.C46_assign' depends on axioms: [propext, Classical.choice, Quot.sound]
'Verif.Props.Comments.C46_file' depends on axioms: [propext, Classical.choice, Quot.sound]
'Verif.Props.Lexer.C47_terminates' depends on axioms: [propext, Classical.choice, Quot.sound]
'Verif.Props.Lexer.C47_balanced' depends on axioms: [propext, Classical.choice, Quot.sound]
'Verif.Props.Lexer.C47_brackets' depends on axioms: [propext, Classical.choice, Quot.sound]
'Verif.Props.Lexer.C47_block_start' depends on axioms: [propext, Classical.choice, Quot.sound]
'Verif.Props.Lexer.C48_tiles' depends on axioms: [propext, Classical.choice, Quot.sound]
'Verif.Props.Reformat.C49_reformat_partial' depends on axioms: [propext, Classical.choice, Quot.sound]
'Verif.Props.Reformat.C49_parsed_ok' depends on axioms: [propext, Classical.choice, Quot.sound]
'Verif.Props.Reformat.C49_backslash_crash' depends on axioms: [propext, Quot.sound]
'Verif.Props.Reformat.C49_trailing_backslash' depends on axioms: [propext, Quot.sound]
'Verif.Props.Reformat.C49_loop_variable_comment' depends on axioms: [propext, Quot.sound]
'Verif.Props.ReformatComments.C49_comments_partial' depends on axioms: [propext, Classical.choice, Quot.sound]
'Verif.Props.ReformatComments.C49_index_comment' depends on axioms: [propext, Quot.sound]
'Verif.Props.ReformatInside.C49_inside_partial' depends on axioms: [propext, Classical.choice, Quot.sound]
'Verif.Props.Round.C50_read_back' depends on axioms: [propext, Classical.choice, Quot.sound]
'Verif.Props.Round.C50_expression' depends on axioms: [propext, Classical.choice, Quot.sound]
'Verif.Props.Round.C50_conditional' depends on axioms: [propext, Quot.sound]
'Verif.Props.Round.C50_lambda_is' depends on axioms: [propext, Quot.sound]
'Verif.Props.Round.C50_is_not' depends on axioms: [propext, Quot.sound]
'Verif.Props.Round.C50_integer_dot' depends on axioms: [propext, Quot.sound]
'Verif.Props.Round.C50_tuple_line_break' depends on axioms: [propext, Quot.sound]
'Verif.Props.RoundComments.C50_comments' depends on axioms: [propext, Classical.choice, Quot.sound]
'Verif.Props.RoundComments.C50_comments_witness' depends on axioms: [propext, Quot.sound]
'Verif.Props.RoundComments.C50_bad_comments' depends on axioms: [propext, Quot.sound]
'Verif.Props.RoundComments.C50_empty_block' depends on axioms: [propext, Quot.sound]
'Verif.Props.RoundInside.C50_inside' depends on axioms: [propext, Classical.choice, Quot.sound]
'Verif.Props.RoundInside.C50_inside_witness' depends on axioms: [propext, Quot.sound]
'Verif.Props.RoundInside.C50_comment_in_line' depends on axioms: [propext, Quot.sound]
'Verif.Printed.C51_parsed' depends on axioms: [propext, Classical.choice, Quot.sound]
'Verif.Printed.C51_source' depends on axioms: [propext, Classical.choice, Quot.sound]
'Verif.Printed.C51_lost_load' depends on axioms: [propext, Quot.sound]
'Verif.Printed.C51_lost_elif' depends on axioms: [propext, Quot.sound]
'Verif.Printed.C51_moved' depends on axioms: [propext, Quot.sound]
'Verif.Printed.C51_file' depends on axioms: [propext, Classical.choice, Quot.sound]
'Verif.Printed.C51_lost' depends on axioms: [propext, Quot.sound]
'Verif.Printed.C51_merged' depends on axioms: [propext, Quot.sound]
'Verif.Printed.C52_no_trailing_blanks' depends on axioms: [propext, Classical.choice, Quot.sound]
'Verif.Printed.C52_ends_with_newline' depends on axioms: [propext, Quot.sound]
'Verif.Printed.C52_tuple_comment' depends on axioms: [propext, Quot.sound]
'Verif.Printed.C52_parsed' depends on axioms: [propext, Classical.choice, Quot.sound]
'Verif.Props.Layout.C53_collapse_only_layout' depends on axioms: [propext, Classical.choice, Quot.sound]
'Verif.Props.Layout.C53_collapse_complete' depends on axioms: [propext, Classical.choice, Quot.sound]
'Verif.Props.Layout.C53_collapse_idempotent' depends on axioms: [propext, Classical.choice, Quot.sound]
'Verif.Props.Layout.C53_plus_only_layout' depends on axioms: [propext, Classical.choice, Quot.sound]
'Verif.Props.Layout.C53_plus_unbroken' depends on axioms: [propext, Classical.choice, Quot.sound]
'Verif.Props.Plus.C53_plus_no_list' depends on axioms: [propext, Classical.choice, Quot.sound]
'Verif.Props.Plus.C53_plus_useful' depends on axioms: [propext, Classical.choice, Quot.sound]
'Verif.Props.Plus.C53_plus_complete' depends on axioms: [propext, Classical.choice, Quot.sound]
'Verif.Props.Plus.C53_plus_example' depends on axioms: [propext, Quot.sound]
'Verif.Props.Flow.C54_sound' depends on axioms: [propext, Quot.sound]
'Verif.Props.Flow.C54_complete' depends on axioms: [propext, Classical.choice, Quot.sound]
'Verif.Props.Flow.C55_implicit' depends on axioms: [propext, Classical.choice, Quot.sound]
'Verif.Props.Flow.C55_bare' depends on axioms: [propext, Quot.sound]
'Verif.Props.Bzlenv.C56_balanced' depends on axioms: [propext, Classical.choice, Quot.sound]
'Verif.Props.Bzlenv.C56_resolve' depends on axioms: [propext, Classical.choice, Quot.sound]
'Verif.Props.Bzlenv.C56_function' depends on axioms: [propext, Classical.choice, Quot.sound]
'Verif.Props.Bzlenv.C56_unique' depends on axioms: [propext, Classical.choice, Quot.sound]
'Verif.Props.Bzlenv.C56_function_witness' depends on axioms: [propext]
'Verif.Props.Bzlenv.C56_complete' depends on axioms: [propext, Classical.choice, Quot.sound]
'Verif.Props.FileType.C57_name' depends on axioms: [propext, Quot.sound]
'Verif.Props.FileType.C57_type' depends on axioms: [propext, Classical.choice, Quot.sound]
'Verif.Props.FileType.C57_unique' depends on axioms: [propext, Quot.sound]
'Verif.Props.FileType.C57_case_directory' depends on axioms: [propext, Quot.sound]
'Verif.Props.FileType.C57_parser' depends on axioms: [propext]
'Verif.Props.FileType.C57_starlark' depends on axioms: [propext, Quot.sound]
'Verif.Props.Warn.C58_disabled_iff' depends on axioms: [propext, Classical.choice, Quot.sound]
'Verif.Props.Warn.C58_sorted' depends on axioms: [propext]
'Verif.Props.Warn.C58_order' depends on axioms: [propext, Classical.choice, Quot.sound]
'Verif.Props.Warn.C58_warn_exact' depends on axioms: [propext, Classical.choice, Quot.sound]
'Verif.Props.Warn.C58_reported' depends on axioms: [propext, Classical.choice, Quot.sound]
'Verif.Props.Warn.C58_unknown' depends on axioms: [propext, Quot.sound]
'Verif.Props.Warn.C58_prefix_witness' depends on axioms: [propext]
'Verif.Props.Rules.C59_move_package' depends on axioms: [propext, Quot.sound]
'Verif.Props.Rules.C59_move_package_idempotent' depends on axioms: [propext, Quot.sound]
'Verif.Props.Rules.C59_plus_equal' depends on axioms: [propext]
'Verif.Props.Grammar.C60_sound' depends on axioms: [propext, Classical.choice, Quot.sound]
'Verif.Props.Grammar.C61_complete' depends on axioms: [propext, Quot.sound]
'Verif.Props.Grammar.C61_unique' depends on axioms: [propext, Classical.choice, Quot.sound]
'Verif.Props.Grammar.C61_refines' depends on axioms: [propext, Quot.sound]
'Verif.Props.Grammar.C62_sound' depends on axioms: [propext, Classical.choice, Quot.sound]
'Verif.Props.Grammar.C62_iff' depends on axioms: [propext, Classical.choice, Quot.sound]
'Verif.Printed.C63_parsed' depends on axioms: [propext, Classical.choice, Quot.sound]
'Verif.Printed.C63_ascii' depends on axioms: [propext, Classical.choice, Quot.sound]
'Verif.Printed.C63_prints' depends on axioms: [propext, Classical.choice, Quot.sound]
'Verif.Printed.C63_prints_expr' depends on axioms: [propext, Classical.choice, Quot.sound]
'Verif.Props.Commands.C64_remove' depends on axioms: [propext, Classical.choice, Quot.sound]
'Verif.Props.Commands.C64_move' depends on axioms: [propext, Classical.choice, Quot.sound]
'Verif.Props.Commands.C64_move_all_fails' depends on axioms: [propext]
'Verif.Props.Commands.C64_move_all' depends on axioms: [propext, Classical.choice, Quot.sound]
'Verif.Props.Commands.C64_replace_list' depends on axioms: [propext, Classical.choice, Quot.sound]
'Verif.Props.Commands.C64_replace_string' depends on axioms: [propext, Classical.choice, Quot.sound]
'Verif.Props.Commands.C64_substitute_list' depends on axioms: [propext, Classical.choice, Quot.sound]
'Verif.Props.Commands.C64_substitute_invalid' depends on axioms: [propext]
'Verif.Props.Commands.C64_add_place' depends on axioms: [propext, Classical.choice, Quot.sound]
'Verif.Props.Commands.C64_move_to_itself' depends on axioms: [propext]
'Verif.Props.Commands.C64_add' depends on axioms: [propext, Classical.choice, Quot.sound]
'Verif.Props.Commands.C64_add_variable' depends on axioms: [propext, Classical.choice, Quot.sound]
'Verif.Props.Commands.C65_frame' depends on axioms: [propext, Classical.choice, Quot.sound]
'Verif.Props.Commands.C65_other_attributes' depends on axioms: [propext, Classical.choice, Quot.sound]
'Verif.Props.Commands.C66_set' depends on axioms: [propext, Classical.choice, Quot.sound]
'Verif.Props.Commands.C66_set_if_absent' depends on axioms: [propext]
'Verif.Props.Commands.C66_set_kind' depends on axioms: [propext]
'Verif.Props.Commands.C66_set_kind_if_absent' depends on axioms: [propext]
'Verif.Props.Commands.C66_rename' depends on axioms: [propext, Classical.choice, Quot.sound]
'Verif.Props.Commands.C66_remove' depends on axioms: [propext, Classical.choice, Quot.sound]
'Verif.Props.Commands.C66_remove_all_changed' depends on axioms: [propext, Classical.choice, Quot.sound]
'Verif.Props.Commands.C66_remove_all' depends on axioms: [propext, Classical.choice, Quot.sound]
'Verif.Props.Commands.C66_remove_if_equal' depends on axioms: [propext]
'Verif.Props.Commands.C66_copy' depends on axioms: [propext, Classical.choice, Quot.sound]
'Verif.Props.Commands.C66_copy_no_overwrite' depends on axioms: [propext, Quot.sound]
'Verif.Props.Commands.C66_copy_missing' depends on axioms: [propext, Quot.sound]
'Verif.Props.Commands.C67_dict_set' depends on axioms: [propext, Classical.choice, Quot.sound]
'Verif.Props.Commands.C67_dict_add' depends on axioms: [propext, Classical.choice, Quot.sound]
'Verif.Props.Commands.C67_dict_colon' depends on axioms: [propext, Quot.sound]
'Verif.Props.Commands.C67_dict_remove' depends on axioms: [propext, Classical.choice, Quot.sound]
'Verif.Props.Commands.C67_dict_replace_if_equal' depends on axioms: [propext, Classical.choice, Quot.sound]
'Verif.Props.Commands.C67_dict_list_add' depends on axioms: [propext, Classical.choice, Quot.sound]
'Verif.Props.Commands.C67_set_select' depends on axioms: [propext, Classical.choice, Quot.sound]
'Verif.Props.Commands.C67_partial_update' depends on axioms: [propext]
'Verif.Props.Targets.C68_rules' depends on axioms: [propext, Classical.choice, Quot.sound]
'Verif.Props.Targets.C68_targets' depends on axioms: [propext, Classical.choice, Quot.sound]
'Verif.Props.Targets.C68_package' depends on axioms: [propext, Quot.sound]
'Verif.Props.Targets.C68_delete' depends on axioms: [propext, Quot.sound]
'Verif.Props.Targets.C68_new' depends on axioms: [propext, Classical.choice, Quot.sound]
'Verif.Props.Targets.C68_new_found' depends on axioms: [propext, Classical.choice, Quot.sound]
'Verif.Props.Targets.C69_target' depends on axioms: [propext, Classical.choice, Quot.sound]
'Verif.Props.Targets.C69_missing' depends on axioms: [propext, Classical.choice, Quot.sound]
'Verif.Props.Targets.C69_package' depends on axioms: [propext, Classical.choice, Quot.sound]
'Verif.Props.Targets.C69_edited' depends on axioms: [propext, Classical.choice, Quot.sound]
'Verif.Props.Targets.C69_attributes' depends on axioms: [propext, Classical.choice, Quot.sound]
'Verif.Props.Again.C70_format_twice_partial' depends on axioms: [propext, Classical.choice, Quot.sound]
'Verif.Props.Again.C70_tree_twice_partial' depends on axioms: [propext, Classical.choice, Quot.sound]
'Verif.Props.Again.C70_module' depends on axioms: [propext, Quot.sound]
'Verif.Props.Again.C70_load' depends on axioms: [propext, Quot.sound]
'Verif.Props.Again.C70_comment' depends on axioms: [propext, Quot.sound]
'Verif.Props.Macro.C71_reported_is_macro' depends on axioms: [propext, Classical.choice, Quot.sound]
'Verif.Props.Macro.C71_reported_exactly' depends on axioms: [propext, Classical.choice, Quot.sound]
'Verif.Props.Macro.C71_terminates' depends on axioms: [propext, Classical.choice, Quot.sound]
'Verif.Props.Macro.C71_first_reported_exactly' depends on axioms: [propext, Classical.choice, Quot.sound]
'Verif.Props.Macro.C71_reports_two' depends on axioms: [propext]
'Verif.Props.Macro.C71_recursion_depends_on_map_order' depends on axioms: [propext]
'Verif.Props.Uninit.C72_reported_exactly' depends on axioms: [propext, Classical.choice, Quot.sound]
'Verif.Props.Uninit.C72_witness' depends on axioms: [propext]
'Verif.Props.Uninit.C72_augmented' depends on axioms: [propext]
'Verif.Props.Uninit.C72_fail' depends on axioms: [propext]
'Verif.Props.Uninit.C72_keyword_in_nested_header' depends on axioms: [propext]
'Verif.Props.UnusedLoadWarn.C73_used_types' depends on axioms: [propext, Quot.sound]
'Verif.Props.UnusedLoadWarn.C73_reported_exactly' depends on axioms: [propext, Classical.choice, Quot.sound]
'Verif.Props.UnusedLoadWarn.C73_statements' depends on axioms: [propext, Classical.choice, Quot.sound]
'Verif.Props.UnusedLoadWarn.C73_meaning' depends on axioms: [propext, Classical.choice, Quot.sound]
'Verif.Props.UnusedLoadWarn.C73_needs' depends on axioms: [propext, Classical.choice, Quot.sound]
'Verif.Props.UnusedLoadWarn.C73_clean' depends on axioms: [propext, Classical.choice, Quot.sound]
'Verif.Props.UnusedLoadWarn.C73_marked' depends on axioms: [propext]
'Verif.Props.UnusedLoadWarn.C73_not_idempotent' depends on axioms: [propext]
'Verif.Props.UnusedLoadWarn.C73_marker_ignored' depends on axioms: [propext]
'Verif.Props.UnusedLoadWarn.C73_union_type_removed' depends on axioms: [propext]
'Verif.Props.UnusedLoadWarn.C73_tuple_type_removed' depends on axioms: [propext]
'Verif.Props.UnusedLoadWarn.C73_disabled_by_first' depends on axioms: [propext]
'Verif.Props.Unused.C74_reported_exactly' depends on axioms: [propext, Classical.choice, Quot.sound]
'Verif.Props.Unused.C74_default_shadowed' depends on axioms: [propext]
'Verif.Props.Unused.C74_type_annotation' depends on axioms: [propext]
'Verif.Props.Unused.C74_update_and_recursion' depends on axioms: [propext]
'Verif.Cosmetic.C75_reported_exactly' depends on axioms: [propext, Classical.choice, Quot.sound]
'Verif.Cosmetic.C75_misplaced' depends on axioms: [propext, Classical.choice, Quot.sound]
'Verif.Cosmetic.C75_fix_exactly' depends on axioms: [propext, Classical.choice, Quot.sound]
'Verif.Cosmetic.C75_arrangement' depends on axioms: [propext, Classical.choice, Quot.sound]
'Verif.Cosmetic.C75_clean' depends on axioms: [propext, Classical.choice, Quot.sound]
'Verif.Cosmetic.C75_nothing_to_do' depends on axioms: [propext, Classical.choice, Quot.sound]
'Verif.Cosmetic.C76_moves' depends on axioms: [propext, Classical.choice, Quot.sound]
'Verif.Cosmetic.C76_reported_exactly' depends on axioms: [propext, Classical.choice, Quot.sound]
'Verif.Cosmetic.C76_idempotent' depends on axioms: [propext, Classical.choice, Quot.sound]
'Verif.Cosmetic.C76_file_types' depends on axioms: [propext, Classical.choice, Quot.sound]
'Verif.Cosmetic.C76_moved_before_use' depends on axioms: [propext]
'Verif.Skylark.C77_none' depends on axioms: [propext, Classical.choice, Quot.sound]
'Verif.Skylark.C77_once' depends on axioms: [propext, Classical.choice, Quot.sound]
'Verif.Skylark.C77_ascii' depends on axioms: [propext, Classical.choice, Quot.sound]
'Verif.Skylark.C77_two_occurrences' depends on axioms: [propext]
'Verif.Skylark.C77_panics' depends on axioms: [propext]
'Verif.Skylark.C77_slash' depends on axioms: [propext]
'Verif.Skylark.C77_comments_reported' depends on axioms: [propext, Classical.choice, Quot.sound]
'Verif.Skylark.C77_comments_safe' depends on axioms: [propext, Classical.choice, Quot.sound]
'Verif.Skylark.C77_comments_complete' depends on axioms: [propext, Classical.choice, Quot.sound]
'Verif.Skylark.C77_dict_entry_lost' depends on axioms: [propext]
'Verif.Skylark.C77_nested_lost' depends on axioms: [propext]
'Verif.Skylark.C77_docstring' depends on axioms: [propext, Classical.choice, Quot.sound]
'Verif.Props.Fix.C78_split_options' depends on axioms: [propext, Classical.choice, Quot.sound]
'Verif.Props.Fix.C78_split_reported' depends on axioms: [propext, Classical.choice, Quot.sound]
'Verif.Props.Fix.C78_split_once' depends on axioms: [propext, Classical.choice, Quot.sound]
'Verif.Props.Fix.C78_split_quoted' depends on axioms: [propext]
'Verif.Props.Fix.C78_shorten_labels' depends on axioms: [propext, Classical.choice, Quot.sound]
'Verif.Props.Fix.C78_visibility' depends on axioms: [propext, Classical.choice, Quot.sound]
'Verif.Props.Fix.C78_visibility_exports' depends on axioms: [propext]
'Verif.Props.Fix.C78_testonly' depends on axioms: [propext, Classical.choice, Quot.sound]
'Verif.Props.FixMore.C78_shorten_reported' depends on axioms: [propext, Classical.choice, Quot.sound]
'Verif.Props.FixMore.C78_reported_example' depends on axioms: [propext]
'Verif.Props.FixMore.C79_genrule_tools' depends on axioms: [propext, Quot.sound]
'Verif.Props.FixMore.C79_licenses_placed' depends on axioms: [propext, Classical.choice, Quot.sound]
'Verif.Props.FixMore.C79_moved_example' depends on axioms: [propext]
'Verif.Props.FixMore.C79_tools_example' depends on axioms: [propext]
'Verif.Props.FixText.C79_explicit_labels' depends on axioms: [propext, Classical.choice, Quot.sound]
'Verif.Props.FixText.C79_genrule_cmd' depends on axioms: [propext, Classical.choice, Quot.sound]
'Verif.Props.FixText.C79_execpath_wrapped' depends on axioms: [propext]
'Verif.Props.FixText.C79_licenses_lost' depends on axioms: [propext, Classical.choice, Quot.sound]
'Verif.Props.FixText.C79_licenses_moved' depends on axioms: [propext, Classical.choice, Quot.sound]
'Verif.Props.FixMore.C80_exports' depends on axioms: [propext]
'Verif.Props.FixTree.C80_merge_safe' depends on axioms: [propext, Classical.choice, Quot.sound]
'Verif.Props.FixTree.C80_merge_complete' depends on axioms: [propext, Classical.choice, Quot.sound]
'Verif.Props.FixTree.C80_merge_reported' depends on axioms: [propext, Classical.choice, Quot.sound]
'Verif.Props.FixTree.C80_merge_comments' depends on axioms: [propext]
'Verif.Props.FixTree.C80_varref' depends on axioms: [propext, Classical.choice, Quot.sound]
'Verif.Props.FixTree.C80_glob' depends on axioms: [propext, Classical.choice, Quot.sound]
'Verif.Props.FixTree.C80_glob_always' depends on axioms: [propext]
'Verif.Props.FixTree.C80_fix_nil' depends on axioms: [propext, Classical.choice, Quot.sound]
'Verif.Props.FixTree.C80_frame' depends on axioms: [propext, Quot.sound]
'Verif.Props.FixTree.C80_unknown' depends on axioms: [propext, Quot.sound]
'Verif.Props.FixTree.C80_all' depends on axioms: [propext, Quot.sound]
'Verif.Props.FixTree.C80_one' depends on axioms: [propext]
'Verif.Props.NotLoaded.C81_reported' depends on axioms: [propext, Classical.choice, Quot.sound]
'Verif.Props.NotLoaded.C81_rewriting' depends on axioms: [propext, Classical.choice, Quot.sound]
'Verif.Props.NotLoaded.C81_unchanged' depends on axioms: [propext, Classical.choice, Quot.sound]
'Verif.Props.NotLoaded.C81_existing_load' depends on axioms: [propext, Classical.choice, Quot.sound]
'Verif.Props.NotLoaded.C81_new_load' depends on axioms: [propext, Classical.choice, Quot.sound]
'Verif.Props.NotLoaded.C81_again_existing' depends on axioms: [propext, Classical.choice, Quot.sound]
'Verif.Props.NotLoaded.C81_again_new' depends on axioms: [propext, Classical.choice, Quot.sound]
'Verif.Props.NotLoaded.C81_provided_new' depends on axioms: [propext, Classical.choice, Quot.sound]
'Verif.Props.NotLoaded.C81_provided_existing' depends on axioms: [propext, Classical.choice, Quot.sound]
'Verif.Props.NotLoaded.C81_top_level_witness' depends on axioms: [propext]
'Verif.Props.NotLoaded.C81_capture_witness' depends on axioms: [propext]
'Verif.Props.NotLoaded.C81_false_positive_witness' depends on axioms: [propext]
'Verif.Props.NotLoaded.C81_wrong_binding_witness' depends on axioms: [propext]
'Verif.Props.NotLoaded.C81_repository' depends on axioms: [propext, Classical.choice, Quot.sound]
'Verif.Props.NotLoaded.C81_cache_witness' does not depend on any axioms
'Verif.Props.ApiWarn.C82_cfg_data' depends on axioms: [propext, Quot.sound]
'Verif.Props.ApiWarn.C82_cfg_host' depends on axioms: [propext]
'Verif.Props.ApiWarn.C82_cfg_only' depends on axioms: [propext, Quot.sound]
'Verif.Props.ApiWarn.C82_cfg_corrupts' depends on axioms: [propext]
'Verif.Props.ApiWarn.C82_negate' depends on axioms: [propext]
'Verif.Props.ApiWarn.C82_non_empty' depends on axioms: [propext, Quot.sound]
'Verif.Props.ApiWarn.C82_non_empty_witness' depends on axioms: [propext]
'Verif.Props.ApiWarn.C82_single_file' depends on axioms: [propext, Quot.sound]
'Verif.Props.ApiWarn.C82_single_file_witness' depends on axioms: [propext]
'Verif.Props.ApiWarn.C82_reported' depends on axioms: [propext, Classical.choice, Quot.sound]
'Verif.Props.ApiWarn.C83_reported' depends on axioms: [propext, Quot.sound]
'Verif.Props.ApiWarn.C83_others' depends on axioms: [propext]
'Verif.Props.ApiWarn.C83_same_call' depends on axioms: [propext, Quot.sound]
'Verif.Props.ApiWarn.C83_again' depends on axioms: [propext, Quot.sound]
'Verif.Props.ApiWarn.C83_applied' depends on axioms: [propext, Quot.sound]
'Verif.Props.ApiWarn.C83_order_witness' depends on axioms: [propext]
'Verif.Props.BuildWarn.C84_duplicated' depends on axioms: [propext, Classical.choice, Quot.sound]
'Verif.Props.BuildWarn.C84_names_unique' depends on axioms: [propext, Classical.choice, Quot.sound]
'Verif.Props.BuildWarn.C84_constant_glob' depends on axioms: [propext, Classical.choice, Quot.sound]
'Verif.Props.BuildWarn.C84_native_reported' depends on axioms: [propext, Classical.choice, Quot.sound]
'Verif.Props.BuildWarn.C84_native_fix' depends on axioms: [propext, Classical.choice, Quot.sound]
'Verif.Props.BuildWarn.C84_native_none' depends on axioms: [propext, Classical.choice, Quot.sound]
'Verif.Props.BuildWarn.C84_native_twice_witness' depends on axioms: [propext]
'Verif.Props.BuildWarn.C84_native_package' depends on axioms: [propext, Classical.choice, Quot.sound]
'Verif.Props.BuildWarn.C84_print' depends on axioms: [propext, Classical.choice, Quot.sound]
'Verif.Props.BuildWarn.C84_args_kwargs' depends on axioms: [propext, Classical.choice, Quot.sound]
'Verif.Props.BuildWarn.C84_positional' depends on axioms: [propext, Classical.choice, Quot.sound]
'Verif.Props.BuildWarn.C84_duplicated_example' depends on axioms: [propext]
'Verif.Props.NameWarn.C85_visibility' depends on axioms: [propext, Classical.choice, Quot.sound]
'Verif.Props.NameWarn.C85_visible_inside' depends on axioms: [propext, Classical.choice, Quot.sound]
'Verif.Props.NameWarn.C85_visibility_examples' depends on axioms: [propext]
'Verif.Props.NameWarn.C85_confusing' depends on axioms: [propext, Classical.choice, Quot.sound]
'Verif.Props.NameWarn.C85_confusing_examples' depends on axioms: [propext]
'Verif.Props.NameWarn.C85_conventions' depends on axioms: [propext, Quot.sound]
'Verif.Props.NameWarn.C85_conventions_examples' depends on axioms: [propext]
'Verif.Props.DocWarn.C86_module' depends on axioms: [propext, Quot.sound]
'Verif.Props.DocWarn.C86_count' depends on axioms: [propext, Classical.choice, Quot.sound]
'Verif.Props.DocWarn.C86_function' depends on axioms: [propext, Classical.choice, Quot.sound]
'Verif.Props.DocWarn.C86_documented' depends on axioms: [propext, Classical.choice, Quot.sound]
'Verif.Props.DocWarn.C86_header' depends on axioms: [propext, Classical.choice, Quot.sound]
'Verif.Props.DocWarn.C86_return' depends on axioms: [propext, Classical.choice, Quot.sound]
'Verif.Props.DocWarn.C86_args' depends on axioms: [propext, Classical.choice, Quot.sound]
'Verif.Props.DocWarn.C86_iter_exists' depends on axioms: [propext, Classical.choice, Quot.sound]
'Verif.Props.DocWarn.C86_args_example' depends on axioms: [propext]
'Verif.Props.DocWarn.C86_empty_name_witness' depends on axioms: [propext]
'Verif.Props.DocWarn.C86_second_section_witness' does not depend on any axioms
'Verif.Props.DocWarn.C86_function_example' depends on axioms: [propext]
'Verif.Props.DocWarn.C86_return_example' depends on axioms: [propext]
'Verif.Props.UnusedDeps.C87_manifest' depends on axioms: [propext, Classical.choice, Quot.sound]
'Verif.Props.UnusedDeps.C87_direct' depends on axioms: [propext, Classical.choice, Quot.sound]
'Verif.Props.UnusedDeps.C87_direct_crash' depends on axioms: [propext, Quot.sound]
'Verif.Props.UnusedDeps.C87_unused' depends on axioms: [propext, Classical.choice, Quot.sound]
'Verif.Props.UnusedDeps.C87_unused_once' depends on axioms: [propext, Classical.choice, Quot.sound]
'Verif.Props.UnusedDeps.C87_extra_action_witness' does not depend on any axioms
'Verif.Props.UnusedDeps.C87_commands' depends on axioms: [propext, Classical.choice, Quot.sound]
'Verif.Props.UnusedDeps.C87_commands_crash' depends on axioms: [propext, Quot.sound]
'Verif.Props.UnusedDeps.C87_run' depends on axioms: [propext, Classical.choice, Quot.sound]
'Verif.Props.UnusedDeps.C87_no_input' depends on axioms: [propext, Classical.choice, Quot.sound]
'Verif.Props.UnusedDeps.C87_run_example' depends on axioms: [propext]
'Verif.Props.UnusedDeps.C87_key_witness' does not depend on any axioms
'Verif.Props.UnusedDeps.C87_crash_witness' depends on axioms: [propext]
'Verif.Props.Files.C88_absolute' depends on axioms: [propext, Classical.choice, Quot.sound]
'Verif.Props.Files.C88_relative' depends on axioms: [propext, Quot.sound]
'Verif.Props.Files.C88_relative_file' depends on axioms: [propext, Quot.sound]
'Verif.Props.Files.C88_relative_file_example' depends on axioms: [propext]
'Verif.Props.Files.C88_repository' depends on axioms: [propext, Classical.choice, Quot.sound]
'Verif.Props.Files.C88_opened' depends on axioms: [propext, Quot.sound]
'Verif.Props.Files.C88_opened_other' depends on axioms: [propext, Quot.sound]
'Verif.Props.Files.C88_one_file_witness' depends on axioms: [propext, Quot.sound]
'Verif.Props.Files.C88_wrong_file_witness' depends on axioms: [propext]
'Verif.Props.Files.C88_example' depends on axioms: [propext]
'Verif.Props.Files.C89_tree' depends on axioms: [propext, Classical.choice, Quot.sound]
'Verif.Props.Files.C89_tree_once' depends on axioms: [propext, Classical.choice, Quot.sound]
'Verif.Props.Files.C89_expand' depends on axioms: [propext, Classical.choice, Quot.sound]
'Verif.Props.Files.C89_expand_fails' depends on axioms: [propext, Classical.choice, Quot.sound]
'Verif.Props.Files.C89_expand_once' depends on axioms: [propext, Classical.choice, Quot.sound]
'Verif.Props.Files.C89_link_witness' depends on axioms: [propext]
'Verif.Props.Files.C89_example' depends on axioms: [propext]
'Verif.Props.Files.C89_example_proper' depends on axioms: [propext]
'Verif.Props.Files.C89_pattern' depends on axioms: [propext, Quot.sound]
'Verif.Props.Types.C90_types' depends on axioms: [propext, Classical.choice, Quot.sound]
'Verif.Props.Types.C90_nodes' depends on axioms: [propext, Classical.choice, Quot.sound]
'Verif.Props.Types.C90_sound' depends on axioms: [propext, Classical.choice, Quot.sound]
'Verif.Props.Types.C90_example' depends on axioms: [propext]
'Verif.Props.Types.C90_example_ctx' depends on axioms: [propext]
'Verif.Props.Types.C90_witness' depends on axioms: [propext]
'Verif.Props.TypeWarn.C91_dict_concat' depends on axioms: [propext, Quot.sound]
'Verif.Props.TypeWarn.C91_named_default' depends on axioms: [propext, Quot.sound]
'Verif.Props.TypeWarn.C91_string_iteration' depends on axioms: [propext, Quot.sound]
'Verif.Props.TypeWarn.C91_depset_iteration' depends on axioms: [propext, Quot.sound]
'Verif.Props.TypeWarn.C91_depset_union' depends on axioms: [propext, Quot.sound]
'Verif.Props.TypeWarn.C91_division' depends on axioms: [propext, Quot.sound]
'Verif.Props.TypeWarn.C91_fix_faithful' depends on axioms: [propext, Classical.choice, Quot.sound]
'Verif.Props.TypeWarn.C91_fix_complete' depends on axioms: [propext, Classical.choice, Quot.sound]
'Verif.Props.TypeWarn.C91_chain_witness' depends on axioms: [propext]
'Verif.Props.TypeWarn.C91_append' depends on axioms: [propext]
'Verif.Props.TypeWarn.C91_append_comments_witness' depends on axioms: [propext]
'Verif.Props.TypeWarn.C91_division_sound' depends on axioms: [propext, Classical.choice, Quot.sound]
'Verif.Props.TypeWarn.C91_fix_example' depends on axioms: [propext, Quot.sound]
'Verif.Props.ActionsWarn.C92_actions_faithful' depends on axioms: [propext, Classical.choice, Quot.sound]
'Verif.Props.ActionsWarn.C92_actions_complete' depends on axioms: [propext, Classical.choice, Quot.sound]
'Verif.Props.ActionsWarn.C92_actions_witness' depends on axioms: [propext]
'Verif.Props.ActionsWarn.C92_actions_example' depends on axioms: [propext]
'Verif.Props.ActionsWarn.C92_output_group' depends on axioms: [propext, Classical.choice, Quot.sound]
'Verif.Props.ActionsWarn.C92_output_group_witness' depends on axioms: [propext]
'Verif.Props.ActionsWarn.C92_args_add' depends on axioms: [propext, Quot.sound]
'Verif.Props.ActionsWarn.C92_args_add_example' depends on axioms: [propext]
'Verif.Props.ActionsWarn.C93_attributes' depends on axioms: [propext, Classical.choice, Quot.sound]
'Verif.Props.ActionsWarn.C93_depset_items' depends on axioms: [propext, Classical.choice, Quot.sound]
'Verif.Props.ActionsWarn.C93_impl_return' depends on axioms: [propext, Classical.choice, Quot.sound]
'Verif.Props.ActionsWarn.C93_provider' depends on axioms: [propext, Quot.sound]
'Verif.Props.ActionsWarn.C93_attr_names' depends on axioms: [propext, Quot.sound]
'Verif.Props.ActionsWarn.C93_file_type' depends on axioms: [propext, Classical.choice, Quot.sound]
'Verif.Props.ActionsWarn.C93_global_variable' depends on axioms: [propext, Classical.choice, Quot.sound]
'Verif.Props.ActionsWarn.C93_example' depends on axioms: [propext]
'Verif.Props.Suffix.C94_suffix' depends on axioms: [propext, Classical.choice, Quot.sound]
'Verif.Props.Suffix.C94_example' depends on axioms: [propext]
'Verif.Props.StmtWarn.C95_no_effect' depends on axioms: [propext, Classical.choice, Quot.sound]
'Verif.Props.StmtWarn.C95_redefined' depends on axioms: [propext, Classical.choice, Quot.sound]
'Verif.Props.StmtWarn.C95_nested_depsets' depends on axioms: [propext, Quot.sound]
'Verif.Props.StmtWarn.C95_no_effect_example' depends on axioms: [propext]
'Verif.Props.StmtWarn.C95_redefined_example' depends on axioms: [propext]
'Verif.Props.StmtWarn.C95_nested_example' depends on axioms: [propext]
'Verif.Props.StmtWarn.C96_deprecated' depends on axioms: [propext, Classical.choice, Quot.sound]
'Verif.Props.StmtWarn.C96_example' depends on axioms: [propext]
'Verif.Props.Spans.C97_spans' depends on axioms: [propext, Classical.choice, Quot.sound]
'Verif.Props.Spans.C97_within' depends on axioms: [propext, Classical.choice, Quot.sound]
'Verif.Props.Spans.C97_disjoint' depends on axioms: [propext, Classical.choice, Quot.sound]
'Verif.Props.Spans.C97_start' depends on axioms: [propext, Classical.choice, Quot.sound]
'Verif.Props.Spans.C97_example' depends on axioms: [propext]
'Verif.Props.Spans.C97_backslash' depends on axioms: [propext]
'Verif.Props.UseRepo.C98_command' depends on axioms: [propext, Classical.choice, Quot.sound]
'Verif.Props.UseRepo.C98_idempotent' depends on axioms: [propext, Classical.choice, Quot.sound]
'Verif.Props.UseRepo.C98_other_files' depends on axioms: [propext]
'Verif.Props.UseRepo.C98_asks' depends on axioms: [propext, Classical.choice, Quot.sound]
'Verif.Props.UseRepo.C98_panics' depends on axioms: [propext, Classical.choice, Quot.sound]
'Verif.Props.UseRepo.C98_empty_calls' depends on axioms: [propext, Classical.choice, Quot.sound]
'Verif.Props.UseRepo.C98_example' depends on axioms: [propext, Quot.sound]
'Verif.Props.UseRepo.C98_own_label_witness' depends on axioms: [propext, Quot.sound]
'Verif.Props.UseRepo.C98_remove_example' depends on axioms: [propext]
'Verif.Props.SortWhere.C99_node' depends on axioms: [propext, Classical.choice, Quot.sound]
'Verif.Props.SortWhere.C99_untouched' depends on axioms: [propext, Classical.choice, Quot.sound]
'Verif.Props.SortWhere.C99_bzl' depends on axioms: [propext, Classical.choice, Quot.sound]
'Verif.Props.SortWhere.C99_use_repo' depends on axioms: [propext, Classical.choice, Quot.sound]
'Verif.Props.SortWhere.C99_docstring' depends on axioms: [propext, Quot.sound]
'Verif.CommentCommand.C100_comment_rule' depends on axioms: [propext, Quot.sound]
'Verif.CommentCommand.C100_comment_attribute' depends on axioms: [propext, Classical.choice, Quot.sound]
'Verif.CommentCommand.C100_comment_value' depends on axioms: [propext, Classical.choice, Quot.sound]
'Verif.CommentCommand.C100_remove_rule' depends on axioms: [propext]
'Verif.CommentCommand.C100_remove_attribute' depends on axioms: [propext, Classical.choice, Quot.sound]
'Verif.CommentCommand.C100_remove_value' depends on axioms: [propext, Classical.choice, Quot.sound]
'Verif.CommentCommand.C100_print_rule' depends on axioms: [propext, Quot.sound]
'Verif.CommentCommand.C100_print_attribute' depends on axioms: [propext, Classical.choice, Quot.sound]
'Verif.CommentCommand.C100_print_value' depends on axioms: [propext, Classical.choice, Quot.sound]
'Verif.CommentCommand.C100_read_back_rule' depends on axioms: [propext, Quot.sound]
'Verif.CommentCommand.C100_read_back_value' depends on axioms: [propext, Classical.choice, Quot.sound]
'Verif.CommentCommand.C100_removed' depends on axioms: [propext, Quot.sound]
'Verif.CommentCommand.C100_attribute_unseen' depends on axioms: [propext, Quot.sound]
'Verif.CommentCommand.C100_attribute_joined' depends on axioms: [propext, Quot.sound]
'Verif.LoadCommand.C101_new_load' depends on axioms: [propext, Classical.choice, Quot.sound]
'Verif.LoadCommand.C101_replace_load_partial' depends on axioms: [propext, Classical.choice, Quot.sound]
'Verif.LoadCommand.C101_new_load_targets_partial' depends on axioms: [propext, Classical.choice, Quot.sound]
'Verif.LoadCommand.C101_later_targets' depends on axioms: [propext, Quot.sound]
'Verif.LoadCommand.C101_rename_lost' depends on axioms: [propext]
/tmp/axioms_query.lean:641:14: error(lean.unknownIdentifier): Unknown constant `Verif.LoadSubstitute.C102_substitute_load`
/tmp/axioms_query.lean:642:14: error(lean.unknownIdentifier): Unknown constant `Verif.LoadSubstitute.C102_symbols`
/tmp/axioms_query.lean:643:14: error(lean.unknownIdentifier): Unknown constant `Verif.LoadSubstitute.C102_pieces`
/tmp/axioms_query.lean:644:14: error(lean.unknownIdentifier): Unknown constant `Verif.PrintCommand.C103_print`
