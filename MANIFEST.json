{
 "claims": [
  {
   "property": "C01",
   "status": "proved",
   "theorems": [
    "Verif.Names.C01_names_never_repeat"
   ],
   "note": ""
  },
  {
   "property": "C02",
   "status": "proved",
   "theorems": [
    "Verif.Names.C02_names_count_up"
   ],
   "note": ""
  },
  {
   "property": "C03",
   "status": "partial",
   "theorems": [
    "Verif.Utils.C03_helpers_complete",
    "Verif.Utils.C03_helpers_once_partial",
    "Verif.Utils.C03_once_negative",
    "Verif.Utils.C03_hang_negative"
   ],
   "note": "Completeness for every hash; once and in order for a hash without collisions among the requests (as the statement says). With colliding hashes the helper may repeat or the request may hang (negations proved)."
  },
  {
   "property": "C04",
   "status": "proved",
   "theorems": [
    "Verif.Utils.C04_insertion_keeps_file",
    "Verif.Utils.C04_separator_negative"
   ],
   "note": "Lines in the sense of splitlines; other line separators than newline are replaced (C04_separator_negative). The isort pass afterwards is not modelled."
  },
  {
   "property": "C05",
   "status": "partial",
   "theorems": [
    "Verif.Utils.C05_insertion_point_partial",
    "Verif.Utils.C05_comment_negative",
    "Verif.Utils.C05_future_negative"
   ],
   "note": "Proved with parentheses counted textually, as the code does; a parenthesis in a comment breaks the statement (C05_comment_negative)."
  },
  {
   "property": "C06",
   "status": "partial",
   "theorems": [
    "Verif.Utils.C06_first_run_partial",
    "Verif.Utils.C06_no_leftovers",
    "Verif.Utils.C06_negative"
   ],
   "note": "False of the code: the helper is a process-wide singleton, later runs write into the path of the first. The first run is right."
  },
  {
   "property": "C07",
   "status": "proved",
   "theorems": [
    "Verif.Mark.C07_marking_keeps_code"
   ],
   "note": "Lines are the pieces of split on newline, as in the code."
  },
  {
   "property": "C08",
   "status": "proved",
   "theorems": [
    "Verif.Mark.C08_marks_have_a_cause",
    "Verif.Mark.C08_min_imports_exempt",
    "Verif.Mark.C09_marks_exactly"
   ],
   "note": ""
  },
  {
   "property": "C09",
   "status": "partial",
   "theorems": [
    "Verif.Mark.C09_leftover_uses_marked_partial",
    "Verif.Mark.C09_marks_exactly",
    "Verif.Mark.C09_inside_negative"
   ],
   "note": "Proved for the converter's own count of triple quotes; C09_inside_negative shows that with the true nesting the statement is false (a line marked by a note is not searched for quotes)."
  },
  {
   "property": "C10",
   "status": "proved",
   "theorems": [
    "Verif.Mark.C10_package_order"
   ],
   "note": ""
  },
  {
   "property": "C11",
   "status": "proved",
   "theorems": [
    "Verif.Mark.C11_mask_keeps_layout",
    "Verif.Mark.C11_mask_changes_only_kept_apis",
    "Verif.Mark.C11_only_kept_apis_change"
   ],
   "note": "The second theorem is about one round of the loop for any name; the third about all rounds, for dotted names."
  },
  {
   "property": "C12",
   "status": "proved",
   "theorems": [
    "Verif.Mark.C12_no_torch_unmarked"
   ],
   "note": ""
  },
  {
   "property": "C13",
   "status": "proved",
   "theorems": [
    "Verif.Files.C13_output_mirrors_input",
    "Verif.Files.C13_single_file"
   ],
   "note": "Links to existing targets are not modelled. The helper file is handled separately."
  },
  {
   "property": "C14",
   "status": "proved",
   "theorems": [
    "Verif.Files.C14_input_untouched",
    "Verif.Files.C14_input_untouched_below",
    "Verif.Files.C14_parent_negative"
   ],
   "note": "C14_parent_negative shows that the excepted case is real."
  },
  {
   "property": "C15",
   "status": "proved",
   "theorems": [
    "Verif.Files.C15_requirements",
    "Verif.Files.C15_requirements_written"
   ],
   "note": ""
  },
  {
   "property": "C16",
   "status": "proved",
   "theorems": [
    "Verif.Files.C16_other_files_copied"
   ],
   "note": ""
  },
  {
   "property": "C17",
   "status": "proved",
   "theorems": [
    "Verif.Files.C17_exclude_iff",
    "Verif.Files.C17_no_exclude",
    "Verif.Files.C17_excluded_subtree",
    "Verif.Files.C17_trailing_comma"
   ],
   "note": "The regular-expression search is a parameter."
  },
  {
   "property": "C18",
   "status": "proved",
   "theorems": [
    "Verif.Files.C18_bad_arguments"
   ],
   "note": ""
  },
  {
   "property": "C19",
   "status": "partial",
   "theorems": [
    "Verif.Files.C19_run_ends_partial",
    "Verif.Files.C19_negative",
    "Verif.Files.C19_inside_negative",
    "Verif.Files.C19_file_negative"
   ],
   "note": "False when the first name on the way from the input to the output is an existing visible directory: then no run ends well (C19_inside_negative), and some never end (C19_negative). False too when the output path is an existing visible file of the input directory: the run deletes this file, and no run ends well (C19_file_negative). Proved in all other cases: the output is outside of the input, below a hidden or excluded name, or the first name does not exist, is a dangling link, or is a file on the way to the output."
  },
  {
   "property": "C20",
   "status": "proved",
   "theorems": [
    "Verif.Dispatch.C20_counts_balance",
    "Verif.Dispatch.C20_outcomes",
    "Verif.Dispatch.C20_success_deserved"
   ],
   "note": ""
  },
  {
   "property": "C21",
   "status": "proved",
   "theorems": [
    "Verif.Dispatch.C21_rate"
   ],
   "note": "Over exact rationals; the floating-point division of the code is not modelled."
  },
  {
   "property": "C22",
   "status": "partial",
   "theorems": [
    "Verif.Dispatch.C22_sum_over_files_partial",
    "Verif.Dispatch.C22_order_partial",
    "Verif.Dispatch.C22_table_negative"
   ],
   "note": "Proved for files without custom ops; the per-API table depends on the order when an API is misidentified in one file."
  },
  {
   "property": "C23",
   "status": "partial",
   "theorems": [
    "Verif.Dispatch.C23_table_adds_up_partial",
    "Verif.Dispatch.C23_table_bound",
    "Verif.Dispatch.C23_negative",
    "Verif.Dispatch.C23_cpp_negative"
   ],
   "note": "False of the code when an API is misidentified or an extension rewrites it; the bound holds always."
  },
  {
   "property": "C24",
   "status": "partial",
   "theorems": [
    "Verif.Dispatch.C24_unaligned_partial",
    "Verif.Dispatch.C24_negative",
    "Verif.Data.C24_shipped_partial",
    "Verif.Data.C24_shipped_entry"
   ],
   "note": "False of the code: a prefix-only API outside torch is removed twice and raises a KeyError; the shipped tables have exactly one such entry, and every project that uses it fails (C24_shipped_entry). Proved for all other projects."
  },
  {
   "property": "C25",
   "status": "proved",
   "theorems": [
    "Verif.Dispatch.C25_reports"
   ],
   "note": ""
  },
  {
   "property": "C26",
   "status": "proved",
   "theorems": [
    "Verif.Dispatch.C26_statistics",
    "Verif.Dispatch.C26_empty",
    "Verif.Dispatch.C26_second_listing"
   ],
   "note": ""
  },
  {
   "property": "C27",
   "status": "partial",
   "theorems": [
    "Verif.Dispatch.C27_names_resolve_partial",
    "Verif.Imports.C27_last_import_wins",
    "Verif.Imports.C27_other_names_partial",
    "Verif.Dispatch.C27_reserved_negative",
    "Verif.Dispatch.C27_other_package_hidden"
   ],
   "note": "Resolution of a dotted use from the table of imported names; false for the reserved names of the table."
  },
  {
   "property": "C28",
   "status": "partial",
   "theorems": [
    "Verif.Imports.C28_other_imports_survive_partial",
    "Verif.Imports.C28_after_local_negative",
    "Verif.Imports.C28_substring_negative"
   ],
   "note": "False of the code: names after a module of the project are dropped and modules that contain the text audiotools are replaced. Proved for programs of regular import statements (Spec/Imports.lean, Regular)."
  },
  {
   "property": "C29",
   "status": "partial",
   "theorems": [
    "Verif.Imports.C29_default_mode_partial",
    "Verif.Imports.C29_min_mode_partial",
    "Verif.Imports.C29_after_local_negative"
   ],
   "note": "Same restriction as C28."
  },
  {
   "property": "C30",
   "status": "partial",
   "theorems": [
    "Verif.Imports.C30_if_try_bodies_partial",
    "Verif.Imports.C30_negative"
   ],
   "note": "False of the code for functions, loops, classes, except clauses and second branches; proved for the bodies of if and try."
  },
  {
   "property": "C31",
   "status": "partial",
   "theorems": [
    "Verif.Imports.C31_added_imports"
   ],
   "note": "For programs of regular import statements, in every iteration order of the sets."
  },
  {
   "property": "C32",
   "status": "proved",
   "theorems": [
    "Verif.Dispatch.C32_no_torch_import",
    "Verif.Dispatch.C32_other_package"
   ],
   "note": ""
  },
  {
   "property": "C33",
   "status": "proved",
   "theorems": [
    "Verif.Dispatch.C33_whole_components",
    "Verif.Data.C33_wildcard_negative"
   ],
   "note": "C33_wildcard_negative: the wildcard table is matched as a regular expression without a component boundary, so names that merely begin with the text transformers are counted too."
  },
  {
   "property": "C34",
   "status": "partial",
   "theorems": [
    "Verif.Data.C34_lookup_total_partial",
    "Verif.Data.C34_dataloader_negative",
    "Verif.Data.C34_entry_found",
    "Verif.Data.C34_alias_resolves",
    "Verif.Data.C34_disabled",
    "Verif.Data.C34_visits_never_assert_partial"
   ],
   "note": "Against the shipped tables, for every name. One name is both alias and API and fails the assertion (C34_dataloader_negative)."
  },
  {
   "property": "C35",
   "status": "proved",
   "theorems": [
    "Verif.Dispatch.C35_package_call",
    "Verif.Dispatch.C35_class_call",
    "Verif.Dispatch.C35_package_attribute",
    "Verif.Dispatch.C35_class_attribute",
    "Verif.Dispatch.C35_renaming_negative"
   ],
   "note": ""
  },
  {
   "property": "C36",
   "status": "partial",
   "theorems": [
    "Verif.Scope.C36_insert",
    "Verif.Scope.C36_insert_prefix",
    "Verif.Scope.C36_pass_partial",
    "Verif.Scope.C36_pass_whole",
    "Verif.Scope.C36_removed_negative"
   ],
   "note": "The insertion itself is proved for every block and record. For a whole pass it is false if an earlier statement of the block was removed (C36_removed_negative); proved up to the first removed statement."
  },
  {
   "property": "C37",
   "status": "proved",
   "theorems": [
    "Verif.Scope.C37_again",
    "Verif.Scope.C37_never_lost",
    "Verif.Scope.C37_complete",
    "Verif.Scope.C37_no_duplicates",
    "Verif.Scope.C37_batch_negative"
   ],
   "note": "A single call that brings the same line twice records it twice (C37_batch_negative), which the statement does not exclude."
  },
  {
   "property": "C38",
   "status": "partial",
   "theorems": [
    "Verif.Scope.C38_position_partial",
    "Verif.Scope.C38_handler_negative",
    "Verif.Scope.C38_decorator_negative",
    "Verif.Scope.C38_async_negative"
   ],
   "note": "Proved for every expression of every program but those in the exception type of an except clause, where the code recurses without end. Decorators, and bodies of async functions and classes, are further deviations."
  },
  {
   "property": "C39",
   "status": "proved",
   "theorems": [
    "Verif.Scope.C39_balanced",
    "Verif.Scope.C39_path",
    "Verif.Scope.C39_all_visited"
   ],
   "note": ""
  },
  {
   "property": "C40",
   "status": "partial",
   "theorems": [
    "Verif.Matcher.C40_no_index_error",
    "Verif.Matcher.C40_arguments_bound_partial",
    "Verif.Matcher.C40_arguments_bound_exactly_partial",
    "Verif.Matcher.C40_argument_count_partial",
    "Verif.Data.C40_shipped_partial",
    "Verif.Matcher.C40_leading_star_negative"
   ],
   "note": "False of the code for entries whose parameters are all keyword-only: they accept a positional argument (two shipped entries). Keywords that are listed as unsupported and given as None may be dropped."
  },
  {
   "property": "C41",
   "status": "partial",
   "theorems": [
    "Verif.Matcher.C41_starred_refused",
    "Verif.Matcher.C41_positional_refused",
    "Verif.Matcher.C41_keyword_refused_partial",
    "Verif.Matcher.C41_skipped_negative",
    "Verif.Matcher.C41_skip_negative",
    "Verif.Matcher.C41_double_star_negative"
   ],
   "note": "False of the code: the loop removes items from the list it iterates over and steps over the next keyword, so behind a dropped keyword anything is accepted (C41_skipped_negative, for every API). Proved for every argument that does not stand directly behind a dropped keyword."
  },
  {
   "property": "C42",
   "status": "partial",
   "theorems": [
    "Verif.Matcher.C42_unknown_keyword_partial",
    "Verif.Matcher.C42_unknown_keyword_misidentified",
    "Verif.Matcher.C42_skip_negative"
   ],
   "note": "Same loop as C41: proved for every keyword that does not stand directly behind a dropped one, false otherwise."
  },
  {
   "property": "C43",
   "status": "proved",
   "theorems": [
    "Verif.Matcher.C43_renaming_keeps_arguments",
    "Verif.Matcher.C43_nothing_invented",
    "Verif.Matcher.C43_collision_negative",
    "Verif.Data.C43_shipped",
    "Verif.Data.C43_accepted_calls_partial"
   ],
   "note": "Exact for rename tables without colliding targets, as the statement says; nothing invented for every table. C43_shipped: the shipped tables have no collisions but indices/sections."
  },
  {
   "property": "C44",
   "status": "proved",
   "theorems": [
    "Verif.Matcher.C44_defaults_never_override",
    "Verif.Matcher.C44_defaults_lookup"
   ],
   "note": ""
  },
  {
   "property": "C45",
   "status": "proved",
   "theorems": [
    "Verif.Matcher.C45_arguments_emitted",
    "Verif.Matcher.C45_args_emitted",
    "Verif.Matcher.C45_kwargs_emitted"
   ],
   "note": "Stated as: reading the emitted text back gives the arguments; for every reader that splits at commas outside brackets and quotes."
  },
  {
   "property": "C46",
   "status": "partial",
   "theorems": [
    "Verif.Matcher.C46_plain_call_keeps_arguments_partial",
    "Verif.Matcher.C46_double_star_negative",
    "Verif.Matcher.C46_unsupported_crash",
    "Verif.Data.C46_shipped_partial"
   ],
   "note": "False for calls with two ** arguments (only the last survives); proved when no keyword repeats."
  },
  {
   "property": "C47",
   "status": "partial",
   "theorems": [
    "Verif.Matcher.C47_prefix_replaced_partial",
    "Verif.Matcher.C47_again_negative",
    "Verif.Data.C47_shipped_partial",
    "Verif.Data.C47_int32"
   ],
   "note": "False for names in which the package text occurs again; among the shipped prefix-only entries that is one (C47_shipped_partial, C47_int32)."
  },
  {
   "property": "C48",
   "status": "partial",
   "theorems": [
    "Verif.Matcher.C48_call_keywords",
    "Verif.Matcher.C48_given",
    "Verif.Matcher.C48_value",
    "Verif.Matcher.C48_statements",
    "Verif.Matcher.C48_negation_partial",
    "Verif.Matcher.C48_unbalanced_negative",
    "Verif.Matcher.C48_precedence_negative"
   ],
   "note": "Everything but the negation is proved for all dictionaries; the negation strips parentheses as characters and is wrong for some expressions."
  },
  {
   "property": "C49",
   "status": "partial",
   "theorems": [
    "Verif.Matcher.C49_legacy_reduction",
    "Verif.Matcher.C49_variable_negative"
   ],
   "note": "Proved for literal flags; flags that are no literals are dropped or misread."
  },
  {
   "property": "C50",
   "status": "partial",
   "theorems": [
    "Verif.Matcher.C50_receiver_text",
    "Verif.Matcher.C50_receiver_kept_partial",
    "Verif.Matcher.C50_backslash_negative",
    "Verif.Matcher.C50_no_class"
   ],
   "note": "C50_receiver_text says for every receiver what becomes of it; it is kept if it has no backslash."
  },
  {
   "property": "C51",
   "status": "proved",
   "theorems": [
    "Verif.Data.C51_tables_coherent",
    "Verif.Data.C51_plain_entries",
    "Verif.Data.C51_generic_targets_partial",
    "Verif.Data.C51_generic_negative"
   ],
   "note": "Over the complete shipped tables, by kernel computation on generated data. The two theorems on generic entries go beyond the statement."
  },
  {
   "property": "C52",
   "status": "proved",
   "theorems": [
    "Verif.Helpers.C52_dim2perm",
    "Verif.Helpers.C52_fails_iff",
    "Verif.Helpers.C52_shape",
    "Verif.Helpers.C52_adjoint"
   ],
   "note": "TransposeMatcher is not referenced by the shipped table; AdjointMatcher, which is, writes the same swap."
  },
  {
   "property": "C53",
   "status": "partial",
   "theorems": [
    "Verif.Helpers.C53_idempotent",
    "Verif.Helpers.C53_maps",
    "Verif.Helpers.C53_keyword",
    "Verif.Helpers.C53_code_number",
    "Verif.Helpers.C53_code_other",
    "Verif.Helpers.C53_keyword_negative",
    "Verif.Helpers.C53_variable_negative"
   ],
   "note": "False for device=0 given by keyword (mapped to cpu), and the matcher replaces cuda inside variable names. Proved otherwise."
  },
  {
   "property": "C54",
   "status": "proved",
   "theorems": [
    "Verif.Helpers.C54_randint"
   ],
   "note": "RandintMatcher is not referenced by the shipped table, which treats torch.randint as prefix-only."
  },
  {
   "property": "C55",
   "status": "partial",
   "theorems": [
    "Verif.Helpers.C55_loaded_partial",
    "Verif.Helpers.C55_imported_partial",
    "Verif.Helpers.C55_negative",
    "Verif.Helpers.C55_imported_negative",
    "Verif.Helpers.C55_loaded_iff"
   ],
   "note": "False of the code: lstrip removes a set of characters. Proved for the names that do not begin with a character of load_; C55_loaded_iff shows that these are exactly the good ones."
  },
  {
   "property": "C56",
   "status": "partial",
   "theorems": [
    "Verif.Scope.C56_refused_partial",
    "Verif.Scope.C56_accepted",
    "Verif.Scope.C56_nested_negative"
   ],
   "note": "Only the direct parent is looked at, and only list and dict comprehensions: false for nested uses (C56_nested_negative)."
  },
  {
   "property": "C57",
   "status": "partial",
   "theorems": [
    "Verif.Uses.C57_uses_replaced_partial",
    "Verif.Uses.C57_chain_negative",
    "Verif.Uses.C57_place_negative"
   ],
   "note": "False of the code: names at places the visitor does not list and everything below two attributes of a call are not visited. Proved for expressions whose uses are at the visited places (Spec/Uses.lean, Seen). Names that were assigned a torch API are not modelled here."
  },
  {
   "property": "C58",
   "status": "proved",
   "theorems": [
    "Verif.Imports.C58_other_statements"
   ],
   "note": "Statements inside expressions do not exist in Python, so imports occur in blocks only."
  },
  {
   "property": "C59",
   "status": "proved",
   "theorems": [
    "Verif.Uses.C59_min_mode_keeps",
    "Verif.Uses.C59_agrees"
   ],
   "note": "The agreement is stated for all names but the one for which the lookup fails (C34)."
  },
  {
   "property": "C60",
   "status": "partial",
   "theorems": [
    "Verif.Imports.C60_first_stays_partial",
    "Verif.Imports.C60_negative"
   ],
   "note": "False of the code as soon as a torch package is imported: the added import goes first. Proved otherwise."
  },
  {
   "property": "C61",
   "status": "proved",
   "theorems": [
    "Verif.Utils.C61_block_lines"
   ],
   "note": ""
  },
  {
   "property": "C62",
   "status": "proved",
   "theorems": [
    "Verif.Mark.C62_other_uses_visible",
    "Verif.Mark.C62_uses_in_min_mode",
    "Verif.Mark.C62_min_marks",
    "Verif.Mark.C62_order_matters"
   ],
   "note": "For names whose components are words that are not only underscores, such that no first component is a later component of a kept API; all APIs of the tables but torch.torch.int32 are such. The per-line form is for lines without quotes."
  },
  {
   "property": "C63",
   "status": "partial",
   "theorems": [
    "Verif.Pipeline.C63_same_matcher_partial",
    "Verif.Pipeline.C63_import_style_partial",
    "Verif.Pipeline.C63_hidden_negative"
   ],
   "note": "False of the code when another import brings in a name that equals a component of the API (from scipy import fft hides torch.fft.fft). Proved for programs of regular imports and uses at the visited places; that the call gets to the matcher of the API is proved for all APIs, the converted call for the prefix-only ones; missing are torch.torch.int32 and the one name for which the lookup fails."
  },
  {
   "property": "C64",
   "status": "partial",
   "theorems": [
    "Verif.Hoist.C64_straight_partial",
    "Verif.Hoist.C64_functions_partial",
    "Verif.Hoist.C64_program_partial",
    "Verif.Hoist.C64_generated_partial",
    "Verif.Hoist.C64_fixed_name_partial",
    "Verif.Hoist.C64_while_test_negative",
    "Verif.Hoist.C64_guard_negative",
    "Verif.Hoist.C64_order_negative",
    "Verif.Hoist.C64_fixed_name_negative"
   ],
   "note": "False of the code for calls in the test of a while, in a branch of a conditional expression (so also on the right of and/or), after an assignment in the same expression, and for two calls in one statement that share a fixed helper name. Proved for all other programs of a small language (assignment, if, while, for, break, continue, return, raise, try, with, functions that call each other; strict operations); global variables in functions, lambda and comprehensions are not in it."
  },
  {
   "property": "C65",
   "status": "proved",
   "theorems": [
    "Verif.Dispatch.C65_calls_reported",
    "Verif.Dispatch.C65_attributes_reported"
   ],
   "note": ""
  },
  {
   "property": "C66",
   "status": "partial",
   "theorems": [
    "Verif.Matcher.C66_only_none_lost",
    "Verif.Matcher.C66_only_none_lost_package",
    "Verif.Matcher.C66_left_unchanged_partial",
    "Verif.Matcher.C66_left_unchanged_package_partial",
    "Verif.Matcher.C66_negative",
    "Verif.Matcher.C66_reported_negative",
    "Verif.Matcher.C66_removed_statement",
    "Verif.Matcher.C66_removed_statement_method",
    "Verif.Matcher.C66_silent",
    "Verif.Matcher.C66_no_delete_shipped"
   ],
   "note": "False of the code: a keyword of an unsupported parameter with the value None is taken out of the call itself while the arguments are read, also if the call is then left alone. Nothing else can be lost, and a call without such a keyword is left exactly as it was. Matchers with their own get_paddle_nodes are not covered."
  },
  {
   "property": "C67",
   "status": "partial",
   "theorems": [
    "Verif.Matcher.C67_other_names_partial",
    "Verif.Matcher.C67_self_negative",
    "Verif.Matcher.C67_shift_negative",
    "Verif.Matcher.C67_lost_negative"
   ],
   "note": "False of the code: a first argument self is taken for the receiver of a call through the class. Proved for calls whose first argument is anything else."
  },
  {
   "property": "C68",
   "status": "partial",
   "theorems": [
    "Verif.Ops.C68_split_partial",
    "Verif.Ops.C68_negative"
   ],
   "note": "False of the code: the size is divided rounding down and the parts are made equal. C68_split_partial shows that the result is right exactly if the part size divides the size; otherwise it is wrong without an error or fails (C68_negative)."
  },
  {
   "property": "C69",
   "status": "proved",
   "theorems": [
    "Verif.Ops.C69_can_cast"
   ],
   "note": "For the types that both libraries have."
  },
  {
   "property": "C70",
   "status": "partial",
   "theorems": [
    "Verif.Ops.C70_layers",
    "Verif.Ops.C70_given",
    "Verif.Ops.C70_log_softmax_partial",
    "Verif.Ops.C70_softmin_partial",
    "Verif.Ops.C70_negative"
   ],
   "note": "False of the code for LogSoftmax() (the table sets axis=0) and softmin(x) (the number of axes is negated). Both theorems give exactly the numbers of axes for which it is right; the other cases are proved."
  },
  {
   "property": "C71",
   "status": "partial",
   "theorems": [
    "Verif.Ops.C71_index_copy_partial",
    "Verif.Ops.C71_first_axis",
    "Verif.Ops.C71_axes_partial",
    "Verif.Ops.C71_negative",
    "Verif.Ops.C71_last_negative",
    "Verif.Ops.C71_names_negative"
   ],
   "note": "False of the code: the offset of a block is a multiple of the number of indices, not of the size of the axis. Proved for one block (the first axis) and if the two are equal; C71_negative shows for all other nonempty index lists and more than one block that the result is wrong for some tensor. False too for the axis -1 (an exception); all other axes, also negative ones, are cut at the right place. The result is given to out by paddle.assign, which is not modelled."
  },
  {
   "property": "C72",
   "status": "proved",
   "theorems": [
    "Verif.Ops.C72_narrow_copy"
   ],
   "note": ""
  },
  {
   "property": "C73",
   "status": "partial",
   "theorems": [
    "Verif.Bind.C73_same_calls_partial",
    "Verif.Bind.C73_rebound_negative",
    "Verif.Bind.C73_parameter_negative",
    "Verif.Bind.C73_function_negative",
    "Verif.Bind.C73_order_negative"
   ],
   "note": "False of the code: the tables of names belong to the file, have no scopes and forget nothing. Proved, for every run, if every such name has one meaning in the file and is assigned to others only after its import. Functions are run where they are defined in the model; canonical names and min mode are left out (C34, C57, C59)."
  },
  {
   "property": "C74",
   "status": "partial",
   "theorems": [
    "Verif.Custom.C74_unrelated_partial",
    "Verif.Custom.C74_no_extensions",
    "Verif.Custom.C74_used_partial",
    "Verif.Custom.C74_order_negative",
    "Verif.Custom.C74_name_negative",
    "Verif.Custom.C74_same_file_negative"
   ],
   "note": "False of the code: the result depends on the order of the files, classes are matched by their bare name, and uses in the file of the class stay while the class goes. Proved: files unrelated to extensions and classes by name are left alone, for every state; a project of three files in the order of dependencies is converted, for all names."
  },
  {
   "property": "C75",
   "status": "partial",
   "theorems": [
    "Verif.Template.C75_covered",
    "Verif.Template.C75_arguments_kept_partial",
    "Verif.Template.C75_text_kept_partial",
    "Verif.Template.C75_user_call_partial",
    "Verif.Template.C75_receiver_kept_partial",
    "Verif.Template.C75_lost_negative",
    "Verif.Template.C75_weights_negative"
   ],
   "note": "False of the code for the arguments in Spec.lostTable and for weights of the torchvision models (each with a witness). Proved for all other arguments of the 516 shipped entries whose matcher is modelled (131 classes); arguments that the table maps to nothing and mere hints (device, layout, ...) are excepted. Missing: ten entries (notModelled); prefix-only and rename-only entries are in C46, C66."
  },
  {
   "property": "C76",
   "status": "partial",
   "theorems": [
    "Verif.Template.C76_arguments_once_partial",
    "Verif.Template.C76_receiver_once_partial",
    "Verif.Template.C76_repeated_negative",
    "Verif.Template.C76_receiver_negative"
   ],
   "note": "False of the code for the arguments in Spec.repeated and the receivers in Spec.repeatedRecv, each with a witness. Proved for all others of the 516 entries of C75."
  },
  {
   "property": "C77",
   "status": "partial",
   "theorems": [
    "Verif.Template.C77_no_error_partial",
    "Verif.Template.C77_failing_negative"
   ],
   "note": "False of the code for torch.Tensor.type, torch.autograd.Function.backward and OneCycleLR (a witness for each). Proved for all other entries of C75. Exceptions are those of dictionary accesses and of the assertion on paddle_api; the parse of the code that is written is not included."
  },
  {
   "property": "C78",
   "status": "partial",
   "theorems": [
    "Verif.Template.C78_code_parses_partial",
    "Verif.Matcher.C78_plain_code_parses_partial",
    "Verif.Template.C78_code_parses_negative",
    "Verif.Template.C78_index_copy_negative"
   ],
   "note": "False of the code: the parentheses at the ends of an argument are removed before not is put in front (requires_grad=f(x) gives not f(x), with the last parenthesis missing), and the code for torch.index_copy assigns to its first argument. Proved for all prefix-only and rename-only entries, and for the 516 entries of C75 if the edited arguments are still expressions and the first argument of torch.index_copy can be assigned to. Texts are read by a tokenizer and a grammar for a part of Python (Spec/Python.lean); that ast.parse accepts what they accept is trusted. Missing: the ten entries of notModelled."
  },
  {
   "property": "C79",
   "status": "partial",
   "theorems": [
    "Verif.Reduce.C79_reduction_partial",
    "Verif.Reduce.C79_double_star_negative",
    "Verif.Reduce.C79_star_negative"
   ],
   "note": "False of the code for calls with ** (a TypeError) and for starred arguments next to others. Proved for all other forms. What paddle.max, argmax and maximum do with their arguments is modelled after their signatures. With an axis the arguments are written twice, so their effects happen twice."
  },
  {
   "property": "C80",
   "status": "partial",
   "theorems": [
    "Verif.Template.C80_spelling_partial",
    "Verif.Template.C80_text_negative",
    "Verif.Template.C80_literal_needed_partial"
   ],
   "note": "False of the code for the six arguments in Spec.textTable, in whose text the matcher looks for something (a witness for each). Proved for all other arguments of the 516 entries of C75; the arguments in Spec.literal are compared with None, booleans and strings, which is allowed (each entry of the table is needed). Missing: the ten entries of notModelled."
  },
  {
   "property": "C81",
   "status": "partial",
   "theorems": [
    "Verif.Template.C81_literal_flag_partial",
    "Verif.Template.C81_no_flag",
    "Verif.Template.C81_variable_flag_partial",
    "Verif.Template.C81_qr_negative",
    "Verif.Template.C81_rnn_negative"
   ],
   "note": "False of the code: Tensor.qr inverts its flag in every call, and bidirectional is ignored by RNN and LSTM unless it is a literal. Proved for the flags of the data sets MNIST, FashionMNIST, CIFAR10 and CIFAR100 with literals and expressions, and for RNN and LSTM with literals. What the options of Paddle mean is taken from its documentation (Spec/Flags.lean)."
  },
  {
   "property": "C82",
   "status": "partial",
   "theorems": [
    "Verif.Template.C82_negated_flag",
    "Verif.Template.C82_no_flag",
    "Verif.Template.C82_svd_partial",
    "Verif.Template.C82_requires_grad_partial",
    "Verif.Template.C82_svd_negative",
    "Verif.Template.C82_requires_grad_negative",
    "Verif.Template.C82_solve_triangular_negative"
   ],
   "note": "False of the code for expressions in parentheses where the matcher removes the parentheses (requires_grad, some of svd: not a or b for the negation of a or b), and for left of solve_triangular, which is not the opposite of transpose. Proved for time_major, fftbins, sync_op, exclusive and set_to_zero with every boolean expression, and for the others with names and literals. Missing: expressions with other operators than and, or, not (comparisons, calls)."
  },
  {
   "property": "C83",
   "status": "partial",
   "theorems": [
    "Verif.Exclude.C83_option",
    "Verif.Exclude.C83_left_alone_partial",
    "Verif.Exclude.C83_others_partial",
    "Verif.Exclude.C83_dotted_negative",
    "Verif.Exclude.C83_methods_negative"
   ],
   "note": "False of the code: after import torchvision.transforms (a dotted name without as) calls by the full name are converted although torchvision is excluded and its import stays, and with torch excluded every prefix-only tensor method in a file with another torch package ends the run with an AssertionError. Proved: which lists the option accepts and what it takes out of the table; imports of excluded packages stay, and uses of the names that they bring in are left alone; uses of the other packages get the same matcher as without the option."
  },
  {
   "property": "C84",
   "status": "partial",
   "theorems": [
    "Verif.Again.C84_second_run_partial",
    "Verif.Again.C84_order_negative",
    "Verif.Again.C84_mapped_negative"
   ],
   "note": "False of the code: the second run puts the imports of packages such as os in front of import paddle, and modules of audiotools get their new prefix again in every run. Proved for programs of regular imports: the result is the same up to the order of the added imports, and exactly the same if none of them is such a package; no expression, call or attribute is changed. Results with marked lines are not Python and cannot be converted again."
  },
  {
   "property": "C85",
   "status": "partial",
   "theorems": [
    "Verif.Whole.C85_meaning_partial",
    "Verif.Whole.C85_reach",
    "Verif.Whole.C85_fits",
    "Verif.Whole.C85_capture_negative"
   ],
   "note": "False of the code for a program with a variable called paddle: the uses of the variable become uses of the package. Proved for every program whose library uses are APIs of ChangePrefixMatcher and ChangeAPIMatcher (as values, functions and methods, by any import style, around other calls) and calls of APIs of GenericMatcher that fit the parameters of the entry (positional and keyword arguments, renamed and dropped arguments, defaults, dtype), and members of os, einops and setuptools that the tables do not know, at places to which the passes go: every meaning of the syntax in which the libraries agree as the tables say is kept. C85_reach: this covers every entry of the three kinds but two and the string literals. Missing: APIs with other matchers (C46, C75 and others), generic calls whose result needs several statements (out, requires_grad; C41, C42) or pin_memory, own names that are names of packages, imports after a use, the places of the negations of C57 and C63, local variables that hide an import (C73). For the first two matchers an argument turned into text and parsed again is taken to be the same node."
  },
  {
   "property": "C86",
   "status": "partial",
   "theorems": [
    "Verif.Members.C86_os_partial",
    "Verif.Members.C86_rename_negative"
   ],
   "note": "False of the code for os.rename: in a file that imports torch and os every call of it is taken for torch.Tensor.rename and reported as not supported. Proved for all other functions of os (Python 3.11 on Linux), of os.path and the methods of os.environ but get, which has an entry of its own, in every file."
  },
  {
   "property": "C87",
   "status": "partial",
   "theorems": [
    "Verif.Value.C87_value_partial",
    "Verif.Value.C87_nameless_negative",
    "Verif.Value.C87_backward_negative"
   ],
   "note": "False of the code: anything below an API that has a matcher but no name in Paddle (torch.addcmul.__doc__, torch.autograd.Variable._execution_engine) ends the run with an exception, and so does torch.autograd.Function.backward as a value; for the name of DataLoader see C34. Proved for all other names."
  },
  {
   "property": "C88",
   "status": "partial",
   "theorems": [
    "Verif.Value.C88_target_partial",
    "Verif.Value.C88_call_negative"
   ],
   "note": "False of the code for real, imag, is_sparse and is_sparse_csr: x.real = y becomes x.real() = y. Proved for all other attributes but those whose text in Paddle is a string, and one regular expression, which are no targets in PyTorch programs."
  },
  {
   "property": "C89",
   "status": "partial",
   "theorems": [
    "Verif.Template.C89_names_partial",
    "Verif.Template.C89_index_copy_negative",
    "Verif.Template.C89_decode_jpeg_negative"
   ],
   "note": "False of the code for torch.index_copy (reads a variable index) and torchvision.io.decode_jpeg without device (writes .to(cpu)). Proved for all other entries with a modelled matcher."
  },
  {
   "property": "C90",
   "status": "partial",
   "theorems": [
    "Verif.HelperText.C90_single",
    "Verif.HelperText.C90_dir_partial",
    "Verif.HelperText.C90_user_single_partial",
    "Verif.HelperText.C90_code_names_partial",
    "Verif.HelperText.C90_dir_negative",
    "Verif.HelperText.C90_single_negative",
    "Verif.HelperText.C90_user_negative"
   ],
   "note": "False in directory mode for helper names that begin with _ (three APIs: import * does not bring them), if the user defines a helper name, and for user names that a helper defines (repeat). Proved in all other cases, with the text of the file before isort."
  },
  {
   "property": "C91",
   "status": "partial",
   "theorems": [
    "Verif.Template.C91_assigned",
    "Verif.Template.C91_hygiene_partial",
    "Verif.Template.C91_variable_partial",
    "Verif.Template.C91_scratch_negative",
    "Verif.Template.C91_index_copy_negative",
    "Verif.Template.C91_generated_negative"
   ],
   "note": "False of the code for 25 matchers that assign fixed names (out1, tmp_lr, res, buffer, i, os, ...; Spec.Assigned.scratch, a witness for each), for torch.index_copy, which assigns a reshaped tensor to its first argument, and for variables that look like generated names (out_0). Proved: nothing else is assigned, for every entry with a modelled matcher; so a variable with any other name keeps its value."
  },
  {
   "property": "C92",
   "status": "partial",
   "theorems": [
    "Verif.Template.C92_erfc",
    "Verif.Template.C92_exp2",
    "Verif.Template.C92_ndtr",
    "Verif.Template.C92_ndtri",
    "Verif.Template.C92_expit_partial",
    "Verif.Template.C92_erfcx_partial",
    "Verif.Template.C92_xlogy_partial",
    "Verif.Template.C92_xlog1py_partial",
    "Verif.Template.C92_logaddexp2_partial",
    "Verif.Template.C92_addcmul",
    "Verif.Template.C92_addcdiv",
    "Verif.Template.C92_add_product_partial",
    "Verif.Template.C92_expit_negative",
    "Verif.Template.C92_xlogy_negative",
    "Verif.Template.C92_logaddexp2_negative",
    "Verif.Template.C92_underflow_negative",
    "Verif.Template.C92_erfc_negative",
    "Verif.Template.C92_add_product_negative"
   ],
   "note": "False of the code: expit is NaN where exp(x) overflows, erfcx is infinite where exp(x*x) overflows, xlogy(0, 0) is NaN, logaddexp2 overflows and underflows, erfc is 0 for large x once erf(x) is rounded to 1, addmv/addr/addbmm with beta=0 give NaN for a tensor with NaN. Proved, in arithmetic that is exact up to a largest number, for all numbers, infinities and NaN: erfc, exp2, ndtr, ndtri; exactly where expit, erfcx, xlogy, xlog1py and addmv/addr/addbmm are right; logaddexp2, addcmul and addcdiv without overflow."
  },
  {
   "property": "C93",
   "status": "partial",
   "theorems": [
    "Verif.Template.C93_lu_solve_call",
    "Verif.Batch.C93_lu_solve_left",
    "Verif.Batch.C93_lu_solve_left_batch",
    "Verif.Batch.C93_lu_solve_right_partial",
    "Verif.Batch.C93_lu_solve_batch_negative",
    "Verif.Batch.C93_lu_solve_shape_negative",
    "Verif.Batch.C93_svd_partial",
    "Verif.Batch.C93_svd_negative",
    "Verif.Batch.C93_positive_definite_partial",
    "Verif.Batch.C93_positive_definite_inv_partial",
    "Verif.Batch.C93_positive_definite_negative"
   ],
   "note": "False of the code for batches of matrices: lu_solve with left=False and PositiveDefiniteTransform reverse all axes (.T) and give wrong values or an exception, svd raises an exception (.t()). Proved: lu_solve with left=True for matrices and batches; lu_solve with left=False, svd (reduced) and PositiveDefiniteTransform with its inverse for single matrices."
  },
  {
   "property": "C94",
   "status": "partial",
   "theorems": [
    "Verif.Boxes.C94_list",
    "Verif.Boxes.C94_tensor_partial",
    "Verif.Boxes.C94_row_count",
    "Verif.Boxes.C94_numbers",
    "Verif.Boxes.C94_tensor_negative",
    "Verif.Template.C94_aligned_negative"
   ],
   "note": "False of the code for a tensor of boxes whose rows are not sorted by image (each box is used with another image), and for roi_align without aligned. Proved: right for every list of boxes; right for a tensor exactly if its rows are sorted."
  },
  {
   "property": "C95",
   "status": "partial",
   "theorems": [
    "Verif.Rotary.C95_rotary_partial",
    "Verif.Rotary.C95_single_negative",
    "Verif.Rotary.C95_longer_negative",
    "Verif.Template.C95_parameters_negative"
   ],
   "note": "False of the code for more rows of cos and sin than positions (one position: a result of the wrong shape; more: an exception) and for the parameters besides x, cos and sin. Proved: the rotary embedding for as many rows as positions."
  },
  {
   "property": "C96",
   "status": "partial",
   "theorems": [
    "Verif.Scatter.C96_world_partial",
    "Verif.Scatter.C96_group_negative",
    "Verif.Scatter.C96_operation_negative",
    "Verif.Scatter.C96_wait_negative",
    "Verif.Template.C96_default_call"
   ],
   "note": "False of the code for every group but that of all processes, without op (the default None is given to Paddle), and for async_op (the default does not wait, and no handle is given). Proved: the outputs for all processes with an operation."
  },
  {
   "property": "C97",
   "status": "partial",
   "theorems": [
    "Verif.Complete.C97_dir_partial",
    "Verif.Complete.C97_single",
    "Verif.Complete.C97_stopped",
    "Verif.Complete.C97_path_partial",
    "Verif.Complete.C97_search_partial",
    "Verif.Complete.C97_own_negative",
    "Verif.Complete.C97_quote_negative"
   ],
   "note": "False of the code for a project with a file paddle_utils.py of its own in the top directory (the output has the helpers in its place), for output directories with a quote in their path or a backslash at its end, and for scripts in whose directory another paddle_utils is found first. Proved for all other projects: the output has the image of every file and the helper file with every helper that was requested; the import line names the output directory. The helpers that a run requests are any list of texts; isort is a parameter."
  },
  {
   "property": "C98",
   "status": "partial",
   "theorems": [
    "Verif.Template.C98_omitted_partial",
    "Verif.Template.C98_given",
    "Verif.Template.C98_covered",
    "Verif.Template.C98_negative",
    "Verif.Template.C98_printoptions_negative"
   ],
   "note": "False of the code for the parameters of diffRules (among them lr of Adamax, ASGD and Rprop, align_corners of affine_grid, training of rrelu and alpha_dropout, aligned of roi_align, affine of InstanceNorm, the mode of median) and for torch.set_printoptions. Proved for the parameters of optRules, which has every default of api_mapping.json. The values that PyTorch and Paddle take are from their documentation; parameters in neither table are not covered."
  },
  {
   "property": "C99",
   "status": "partial",
   "theorems": [
    "Verif.Schedule.C99_trace_partial",
    "Verif.Schedule.C99_linear",
    "Verif.Schedule.C99_constant_code",
    "Verif.Schedule.C99_learning_rate_code",
    "Verif.Schedule.C99_one_cycle_code",
    "Verif.Schedule.C99_older_negative",
    "Verif.Schedule.C99_two_negative",
    "Verif.Schedule.C99_constant_zero_negative",
    "Verif.Schedule.C99_one_cycle_negative",
    "Verif.Schedule.C99_key_negative"
   ],
   "note": "False of the code for two schedulers that make steps in turn (only the last one counts in the converted program), for ConstantLR with total_iters=0, and for OneCycleLR without div_factor or final_div_factor (another learning rate at the end, or a KeyError while converting). Proved for programs in which only the newest scheduler makes steps, with the calls of Call.Fit. Numbers are those of an ordered field, not floats; the behaviour of the schedulers of PyTorch and Paddle is from their documentation; last_epoch, state dictionaries and groups of parameters are not modelled."
  },
  {
   "property": "C100",
   "status": "partial",
   "theorems": [
    "Verif.Separate.C100_last",
    "Verif.Separate.C100_apart_partial",
    "Verif.Separate.C100_negative",
    "Verif.Separate.C100_helpers_negative"
   ],
   "note": "False of the code: all projects get the same output directory, so a file that two of them have at the same relative path is kept from the last one only, and so are the helpers. C100_last says what is left; C100_apart_partial proves the claim for projects without common files of which at most one requests helpers. Projects that are single files, and those that Ready or Projects exclude (a directory and a file of the same name, an own paddle_utils.py), are not covered."
  },
  {
   "property": "C101",
   "status": "partial",
   "theorems": [
    "Verif.Matcher.C101_checkpoint_partial",
    "Verif.Matcher.C101_hub_load_partial",
    "Verif.Matcher.C101_hub_load_negative",
    "Verif.Matcher.C101_stft_partial",
    "Verif.Matcher.C101_stft_positional_negative",
    "Verif.Matcher.C101_stft_variable_negative",
    "Verif.Matcher.C101_chain_matmul_partial",
    "Verif.Matcher.C101_chain_value",
    "Verif.Matcher.C101_chain_refused",
    "Verif.Matcher.C101_chain_starred_negative",
    "Verif.Matcher.C101_make_tensor_partial",
    "Verif.Matcher.C101_make_tensor_bounds_negative",
    "Verif.Matcher.C101_make_tensor_out_negative",
    "Verif.Matcher.C101_make_tensor_ignored_negative",
    "Verif.Matcher.C101_make_tensor_quotes_negative",
    "Verif.Template.C101_entries"
   ],
   "note": "False of the code for eight kinds of calls (the negatives). The partial theorems give the text of all other calls; that PaddlePaddle does the same with it is only taken from its signatures. A receiver of stft with line ends or backslashes is covered by C50."
  },
  {
   "property": "C102",
   "status": "partial",
   "theorems": [
    "Verif.Template.C102_code",
    "Verif.Foreach.C102_operator_partial",
    "Verif.Foreach.C102_method_partial",
    "Verif.Foreach.C102_erfc"
   ],
   "note": "The code is proved for every entry torch._foreach_f and every list, and the helpers for every list and store. Missing: that the function of Paddle with the same name computes for one tensor what PyTorch does; it is the hypothesis MakesNew or Changes of the partial theorems. The helpers are transcribed from their texts, not executed by a model of Python."
  }
 ]
}