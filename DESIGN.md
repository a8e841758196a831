# Design of the PaConvert model

The code under study is `/repo/paconvert` (PaddlePaddle/PaConvert, Python) at the pinned commit. It is read as text and
never run. The model is a set of total, computable Lean functions that follow the Python functions branch by branch.

## Reading the model

* Python strings are lists of characters (`Str`), with the operations the code uses (`replace`, `split`, `strip`,
  `startswith`, ...) defined in `Verif/Py/Str.lean`. `py"..."` is a literal.
* Dictionaries are insertion-ordered association lists (`Verif/Py/Dict.lean`). A set is a list without repeats, and a
  theorem about a loop over a set quantifies over every order of it.
* Exceptions are values (`Except Err`, or a constructor of the result type).
* Loops that need not end in Python carry fuel, and running out of fuel is a result of its own; no theorem treats it as
  success. Where the property is that the loop ends, the theorem says that enough fuel exists.
* Regular expressions are compiled by hand into matching functions, and `re.sub` is defined over them
  (`Verif/Py/Sub.lean`). What the compiled pattern means is stated in a separate specification.
* An expression that only passes through a matcher is represented by the text `astor.to_source(node).strip("\n")` and by
  the facts about the node that the code looks at.

| path | content |
| --- | --- |
| `lean/Verif/Py/` | Python primitives with their lemmas |
| `lean/Verif/Model/` | the model; every definition cites file and lines |
| `lean/Verif/Spec/` | small specifications that occur in statements and do not use the model's helper functions |
| `lean/Verif/Data/` | the JSON tables, texts coded as numbers; written by `tools/gen_tables.py` |
| `lean/Verif/Lemmas/` | lemmas |
| `lean/Verif/Props/` | the theorems `Cxx_...`, each with an `example` that meets its hypotheses |
| `seeded/LOG.jsonl` | wrong programs tried against the theorems |

Names: `Cxx_..._partial` proves a part of the property (the hypotheses that are added, or the part that is missing, are
named in its comment and below). `Cxx_..._negative` proves, with a concrete witness, that the property or a hypothesis-free
form of it is false of the code.

## Trusted base

* Lean's kernel.
* Axioms: only `propext`, `Classical.choice`, `Quot.sound`. There is no axiom of our own, no `sorry`, no `native_decide` or
  `bv_decide`. The last section lists the axioms of each theorem.
* The reading of the Python code, definition by definition.
* The reading of the libraries it calls, as far as the model has them: `str` and `dict` methods, `os.path` on absolute
  normalised paths, `re` for the patterns that occur, the order in which `ast.NodeTransformer.generic_visit` visits.
* The reading of the documentation of PyTorch (`Spec/Ops`) and of Paddle (`Model/Ops`) for the operators of C68 and later.
* `tools/gen_tables.py`, which turns the JSON tables into `Verif/Data`. A text is coded as the number whose digits are its
  characters; `decode_inj` shows that no two codes used stand for the same text. That the data are the shipped JSON is not
  proved; running the script again gives the same files.

Whole-table theorems (C24, C34, C43, C46, C47, C51, C59, C62, C75 to C78, C89) are `decide +kernel` on the complete tables, lifted by lemmas
to statements about names. This is a computation over the entire finite domain, not over a sample.

## What is modelled

| code | model |
| --- | --- |
| `utils.py` 22-35, generated names | `Model/Names` |
| `utils.py` 39-186, `UtilsFileHelper` | `Model/Utils`, up to the call of `isort` |
| `converter.py` 43-46, 92-129, 321-434, file tree | `Model/Files`, conversion of one Python file as a parameter |
| `converter.py` 132-304 and `main.py` 142-195, reports | `Model/Report` |
| `converter.py` 463-546, masking and marking | `Model/Mark` |
| `base.py` 55-168, 270-325, scopes and inserted lines | `Model/Scope` |
| `base.py` 170-271, names | `Model/Dispatch`, `Model/Uses` |
| `base.py` 328-581, `BaseMatcher` | `Model/Matcher` |
| `transformer/import_transformer.py` 43-337, 503-527 | `Model/Imports` |
| `transformer/import_transformer.py` 339-501 | `Model/Uses` |
| `transformer/basic_transformer.py` 67-839, decisions and counters | `Model/Dispatch` |
| `transformer/custom_op_transformer.py` | `Model/Custom`, `Model/Helpers`, counters in `Model/Dispatch` |
| `api_matcher.py` 55-166, 367-432 and the matchers named below | `Model/Matcher`, `Model/Helpers` |
| `api_matcher.py`, `generate_code` of the matchers of 516 entries (C75 to C78) | `Model/Template`, `Model/Kwargs` |
| `api_matcher.py` 1324-1445, `Tensor.max` and `Tensor.min` | `Model/Reduce` |
| emitted code of single operators (C68 and later) | `Model/Ops`, run-time behaviour |
| the JSON tables, `global_var.py` 21-41 | `Model/Tables`, `Data/` |
| what a name stands for through a file | `Model/Bind` |
| import pass and conversion of one call together | `Model/Pipeline` |
| `transformer/basic_transformer.py`, the pass over an expression, APIs of `ChangePrefixMatcher`, `ChangeAPIMatcher` and `GenericMatcher` | `Model/Basic` |
| `transformer/basic_transformer.py`, `visit_Attribute` and `trans_class_attribute`: what takes the place of an attribute; `get_paddle_api` of the matchers in the tables | `Model/Value` |
| `api_matcher.py` 1693-1701, `Tensor.rename` | `Model/Rename` |
| `api_matcher.py`, `generate_utils_code` of all matchers in the table and the calls of `enable_utils_code` | `Model/HelperText` |
| `api_matcher.py` 900-909, 4352-4389, 5906-5921, matrices | `Model/Batch`, run-time behaviour on matrices |
| `api_matcher.py` 5418-5441, boxes | `Model/Boxes`, run-time behaviour |
| `api_matcher.py` 3832-3856, rotary embeddings | `Model/Rotary`, run-time behaviour |
| `api_matcher.py` 5794-5803, reduce_scatter_tensor | `Model/Scatter`, run-time behaviour |
| `converter.py` 98-129, `utils.py` 134-186, `base.py` 513-536, a whole run with helpers | `Model/Complete` |
| `api_matcher.py` 4121-4184, learning-rate schedulers | `Model/Schedule`, run-time behaviour |
| `main.py` 148-171, the loop of `--separate_convert` | `Model/Separate` |
| `api_matcher.py` 435-464, 948-999, 3257-3272, 5551-5563, matchers that read the arguments themselves | `Model/Direct` |
| `api_matcher.py` 5713-5789, 5880-5901, run-time helpers of the operations on lists | `Model/Foreach` |

## What is not modelled

* `ast.parse`, `astor.to_source`, `black` and `isort`. Statements about emitted code are about the text or the tree the
  converter builds, before these run. Reading text back is a parameter with stated laws (`Spec.Lexer`); C78
  has a tokenizer and a grammar of its own for a part of Python (`Spec/Python.lean`).
* Logging, command line parsing, spreadsheets, encodings, I/O errors, symbolic links to existing targets.
* `tensor_requires_grad_transformer.py` (not used by `converter.py`).
* 115 of the 263 matcher classes of `api_matcher.py` are not referenced by the shipped tables and are not modelled
  (except `TransposeMatcher` and `RandintMatcher`). The calls of all other entries are: `Model/Kwargs` for those that
  have `generate_code` (C75_covered), `Model/Matcher` for `ChangePrefixMatcher` and `ChangeAPIMatcher`, and for the ten
  entries of `Spec.Arguments.notModelled`: `Model/Direct` (checkpoint, hub.load, make_tensor, chain_matmul, Tensor.stft),
  `Model/Reduce` (Tensor.max, Tensor.min), `Model/Ops` (Tensor.split), `Model/Rename` (Tensor.rename). Calls of
  `transformers.PreTrainedModel` are not modelled.
* Floating point: the convert rate is an exact rational here.

## Properties

The statements are in `properties.jsonl`, the theorems in `MANIFEST.json`. For each property: what is modelled, how it is
proved, and what is missing or false.

### C01 Generated temporary names never repeat (proved)

* Modelled: `UniqueNameGenerator` as a state machine over all request histories.
* Proof: decimal digits contain no `_`, so key and number are recovered from `key_number`; induction over histories.
* Theorems: `C01_names_never_repeat`.

### C02 Generated names count up per key (proved)

* Modelled: as C01.
* Proof: induction over histories.
* Theorems: `C02_names_count_up`.

### C03 Every requested helper is emitted once (partial)

* Modelled: `add_code`, `_get_code_hash` with the hash function a parameter.
* Proof: induction over requests; the search for a free slot has fuel.
* Theorems: `C03_helpers_complete`, `C03_helpers_once_partial`, `C03_once_negative`, `C03_hang_negative`.
* Remarks: Completeness for every hash; once and in order for a hash without collisions among the requests (as the statement says). With colliding hashes the helper may repeat or the request may hang (negations proved).

### C04 Helper block insertion keeps the user's file (proved)

* Modelled: `write_code` in single-file mode up to `isort`.
* Proof: the output is take, block, drop of the input lines.
* Theorems: `C04_insertion_keeps_file`, `C04_separator_negative`.
* Remarks: Lines in the sense of splitlines; other line separators than newline are replaced (C04_separator_negative). The isort pass afterwards is not modelled.

### C05 Helper block never splits an import (partial)

* Modelled: `_find_import_insert_idx`.
* Proof: scanner invariant, induction over the remaining lines.
* Theorems: `C05_insertion_point_partial`, `C05_comment_negative`, `C05_future_negative`.
* Remarks: Proved with parentheses counted textually, as the code does; a parenthesis in a comment breaks the statement (C05_comment_negative).

### C06 Helper file belongs to the run that requested it (partial)

* Modelled: singleton `UtilsFileHelper` as a state machine over runs.
* Proof: invariant for the first run; witness for the second.
* Theorems: `C06_first_run_partial`, `C06_no_leftovers`, `C06_negative`.
* Remarks: False of the code: the helper is a process-wide singleton, later runs write into the path of the first. The first run is right.

### C07 Marking keeps the code (proved)

* Modelled: `mark_unsupport`.
* Proof: induction over lines.
* Theorems: `C07_marking_keeps_code`.
* Remarks: Lines are the pieces of split on newline, as in the code.

### C08 Marks have a cause (proved)

* Modelled: `mark_unsupport` with its patterns.
* Proof: induction over lines, matching functions characterised by existence of a split.
* Theorems: `C08_marks_have_a_cause`, `C08_min_imports_exempt`, `C09_marks_exactly`.

### C09 Leftover torch uses are marked (partial)

* Modelled: as C08.
* Proof: both directions of the same characterisation.
* Theorems: `C09_leftover_uses_marked_partial`, `C09_marks_exactly`, `C09_inside_negative`.
* Remarks: Proved for the converter's own count of triple quotes; C09_inside_negative shows that with the true nesting the statement is false (a line marked by a note is not searched for quotes).

### C10 Marking does not depend on package order (proved)

* Modelled: as C08.
* Proof: the test is a disjunction over the set.
* Theorems: `C10_package_order`.

### C11 Masking keeps the layout (proved)

* Modelled: `mask_change_prefix_apis`.
* Proof: invariant of `re.sub`: equal length, changed characters lie in a match.
* Theorems: `C11_mask_keeps_layout`, `C11_mask_changes_only_kept_apis`, `C11_only_kept_apis_change`.
* Remarks: The second theorem is about one round of the loop for any name; the third about all rounds, for dotted names.

### C12 Files without torch stay unmarked (proved)

* Modelled: as C08.
* Proof: corollary of the characterisation.
* Theorems: `C12_no_torch_unmarked`.

### C13 The output tree mirrors the input tree (proved)

* Modelled: `transfer_dir`, `transfer_file`, `run` on a finite map of paths.
* Proof: induction over the depth with a frame condition.
* Theorems: `C13_output_mirrors_input`, `C13_single_file`.
* Remarks: Links to existing targets are not modelled. The helper file is handled separately.

### C14 Conversion does not touch the input (proved)

* Modelled: as C13.
* Proof: frame: every write is at or below the output path.
* Theorems: `C14_input_untouched`, `C14_input_untouched_below`, `C14_parent_negative`.
* Remarks: C14_parent_negative shows that the excepted case is real.

### C15 requirements.txt is rewritten totally (proved)

* Modelled: `str.replace`.
* Proof: equality with an inductive relation for leftmost replacement.
* Theorems: `C15_requirements`, `C15_requirements_written`.

### C16 Other files are copied verbatim (proved)

* Modelled: `transfer_file`.
* Proof: case analysis.
* Theorems: `C16_other_files_copied`.

### C17 Exclude patterns mean what they say (proved)

* Modelled: exclude patterns, regular-expression search a parameter.
* Proof: split characterised; induction for the subtree.
* Theorems: `C17_exclude_iff`, `C17_no_exclude`, `C17_excluded_subtree`, `C17_trailing_comma`.
* Remarks: The regular-expression search is a parameter.

### C18 Bad arguments fail before any file is written (proved)

* Modelled: `run`.
* Proof: case analysis.
* Theorems: `C18_bad_arguments`.

### C19 A run ends (partial)

* Modelled: as C13 with fuel.
* Proof: measure: depth of what the run can still enter; for the negation, the directories on the way `s/s/s/...` are never removed and always one ahead of the run (invariant `Chain`), induction on the fuel; a file or dangling link on the way blocks every write, so the state stays as it is; for a file at the output path, the path is this file or has become a directory (`AtFile`, `Turned`).
* Theorems: `C19_run_ends_partial`, `C19_negative`, `C19_inside_negative`, `C19_file_negative`.
* Remarks: False when the first name on the way from the input to the output is an existing visible directory: then no run ends well (C19_inside_negative), and some never end (C19_negative). False too when the output path is an existing visible file of the input directory: the run deletes this file, and no run ends well (C19_file_negative). Proved in all other cases: the output is outside of the input, below a hidden or excluded name, or the first name does not exist, is a dangling link, or is a file on the way to the output.

### C20 Counts balance (proved)

* Modelled: one step per visited call or attribute, every return path; the matcher answers are arbitrary.
* Proof: invariant over sequences of steps; per-step classification.
* Theorems: `C20_counts_balance`, `C20_outcomes`, `C20_success_deserved`.

### C21 The convert rate is a rate (proved)

* Modelled: end of `run`.
* Proof: from C20, over rationals.
* Theorems: `C21_rate`.
* Remarks: Over exact rationals; the floating-point division of the code is not modelled.

### C22 Totals do not depend on file order (partial)

* Modelled: passes and files as folds.
* Proof: the totals are sums; witness for the table.
* Theorems: `C22_sum_over_files_partial`, `C22_order_partial`, `C22_table_negative`.
* Remarks: Proved for files without custom ops; the per-API table depends on the order when an API is misidentified in one file.

### C23 The per-API table adds up (partial)

* Modelled: `all_api_map`.
* Proof: invariant; witnesses.
* Theorems: `C23_table_adds_up_partial`, `C23_table_bound`, `C23_negative`, `C23_cpp_negative`.
* Remarks: False of the code when an API is misidentified or an extension rewrites it; the bound holds always.

### C24 The unaligned-API report never crashes (partial)

* Modelled: the unaligned report.
* Proof: case analysis; shipped tables by computation.
* Theorems: `C24_unaligned_partial`, `C24_negative`, `C24_shipped_partial`, `C24_shipped_entry`.
* Remarks: False of the code: a prefix-only API outside torch is removed twice and raises a KeyError; the shipped tables have exactly one such entry, and every project that uses it fails (C24_shipped_entry). Proved for all other projects.

### C25 Reports are complete and sorted (proved)

* Modelled: the report loops, `sorted` as a stable sort.
* Proof: permutation and order of merge sort.
* Theorems: `C25_reports`.

### C26 Project statistics are consistent (proved)

* Modelled: `main.py` statistics.
* Proof: counting lemmas.
* Theorems: `C26_statistics`, `C26_empty`, `C26_second_listing`.

### C27 Names resolve through imports (partial)

* Modelled: `get_full_attr`, `imports_map`.
* Proof: induction over dotted names and import lists.
* Theorems: `C27_names_resolve_partial`, `C27_last_import_wins`, `C27_other_names_partial`, `C27_reserved_negative`, `C27_other_package_hidden`.
* Remarks: Resolution of a dotted use from the table of imported names; false for the reserved names of the table.

### C28 Imports of other packages survive (partial)

* Modelled: `visit_Import`, `visit_ImportFrom` over nested blocks.
* Proof: mutual induction over statements and blocks.
* Theorems: `C28_other_imports_survive_partial`, `C28_after_local_negative`, `C28_substring_negative`.
* Remarks: False of the code: names after a module of the project are dropped and modules that contain the text audiotools are replaced. Proved for programs of regular import statements (Spec/Imports.lean, Regular).

### C29 Torch imports are removed in default mode and kept in min mode (partial)

* Modelled: as C28.
* Proof: as C28.
* Theorems: `C29_default_mode_partial`, `C29_min_mode_partial`, `C29_after_local_negative`.
* Remarks: Same restriction as C28.

### C30 Removing imports leaves no empty block (partial)

* Modelled: as C28 with the `pass` insertion.
* Proof: as C28.
* Theorems: `C30_if_try_bodies_partial`, `C30_negative`.
* Remarks: False of the code for functions, loops, classes, except clauses and second branches; proved for the bodies of if and try.

### C31 Each needed paddle package is imported once (partial)

* Modelled: `visit_Module`, `insert_import`.
* Proof: permutations of the sets.
* Theorems: `C31_added_imports`.
* Remarks: For programs of regular import statements, in every iteration order of the sets.

### C32 Without a torch import no method call is converted (proved)

* Modelled: `get_full_attr`, decisions of `visit_Call`/`visit_Attribute`.
* Proof: case analysis over the decision.
* Theorems: `C32_no_torch_import`, `C32_other_package`.

### C33 Package prefixes match whole components (proved)

* Modelled: `start_with_torch`.
* Proof: prefix of component lists.
* Theorems: `C33_whole_components`, `C33_wildcard_negative`.
* Remarks: C33_wildcard_negative: the wildcard table is matched as a regular expression without a component boundary, so names that merely begin with the text transformers are counted too.

### C34 Name lookup in the API tables is deterministic and total (partial)

* Modelled: `get_api_matcher` on the shipped tables.
* Proof: computation over the tables, lifted to all names.
* Theorems: `C34_lookup_total_partial`, `C34_dataloader_negative`, `C34_entry_found`, `C34_alias_resolves`, `C34_disabled`, `C34_visits_never_assert_partial`.
* Remarks: Against the shipped tables, for every name. One name is both alias and API and fails the assertion (C34_dataloader_negative).

### C35 Class API candidates are tried in a fixed order (proved)

* Modelled: candidate classes for methods and attributes.
* Proof: equality with a specification by first match.
* Theorems: `C35_package_call`, `C35_class_call`, `C35_package_attribute`, `C35_class_attribute`, `C35_renaming_negative`.

### C36 Inserted lines keep the program order (partial)

* Modelled: `record_scope`, `insert_scope`, `insert_multi_node`.
* Proof: induction over recorded lines and blocks.
* Theorems: `C36_insert`, `C36_insert_prefix`, `C36_pass_partial`, `C36_pass_whole`, `C36_removed_negative`.
* Remarks: The insertion itself is proved for every block and record. For a whole pass it is false if an earlier statement of the block was removed (C36_removed_negative); proved up to the first removed statement.

### C37 Recorded lines are not duplicated (proved)

* Modelled: `record_scope`.
* Proof: invariant over sequences of calls.
* Theorems: `C37_again`, `C37_never_lost`, `C37_complete`, `C37_no_duplicates`, `C37_batch_negative`.
* Remarks: A single call that brings the same line twice records it twice (C37_batch_negative), which the statement does not exclude.

### C38 Helper lines land in the block of the use (partial)

* Modelled: `scope_body_index`.
* Proof: induction over the syntax tree.
* Theorems: `C38_position_partial`, `C38_handler_negative`, `C38_decorator_negative`, `C38_async_negative`.
* Remarks: Proved for every expression of every program but those in the exception type of an except clause, where the code recurses without end. Decorators, and bodies of async functions and classes, are further deviations.

### C39 Traversal bookkeeping is balanced (proved)

* Modelled: `visit`, stacks.
* Proof: mutual induction over trees.
* Theorems: `C39_balanced`, `C39_path`, `C39_all_visited`.

### C40 Arguments are bound to the right parameters (partial)

* Modelled: `parse_args`, `parse_kwargs`.
* Proof: induction over argument lists.
* Theorems: `C40_no_index_error`, `C40_arguments_bound_partial`, `C40_arguments_bound_exactly_partial`, `C40_argument_count_partial`, `C40_shipped_partial`, `C40_leading_star_negative`.
* Remarks: False of the code for entries whose parameters are all keyword-only: they accept a positional argument (two shipped entries). Keywords that are listed as unsupported and given as None may be dropped.

### C41 Unsupported arguments are refused (partial)

* Modelled: as C40, including the removal during iteration.
* Proof: as C40; witnesses.
* Theorems: `C41_starred_refused`, `C41_positional_refused`, `C41_keyword_refused_partial`, `C41_skipped_negative`, `C41_skip_negative`, `C41_double_star_negative`.
* Remarks: False of the code: the loop removes items from the list it iterates over and steps over the next keyword, so behind a dropped keyword anything is accepted (C41_skipped_negative, for every API). Proved for every argument that does not stand directly behind a dropped keyword.

### C42 Unknown keywords are refused (partial)

* Modelled: as C40.
* Proof: as C40; witnesses.
* Theorems: `C42_unknown_keyword_partial`, `C42_unknown_keyword_misidentified`, `C42_skip_negative`.
* Remarks: Same loop as C41: proved for every keyword that does not stand directly behind a dropped one, false otherwise.

### C43 Renaming keeps arguments (proved)

* Modelled: `change_kwargs`.
* Proof: induction over the dictionary; shipped rename tables by computation.
* Theorems: `C43_renaming_keeps_arguments`, `C43_nothing_invented`, `C43_collision_negative`, `C43_shipped`, `C43_accepted_calls_partial`.
* Remarks: Exact for rename tables without colliding targets, as the statement says; nothing invented for every table. C43_shipped: the shipped tables have no collisions but indices/sections.

### C44 Paddle defaults never override the user (proved)

* Modelled: `set_paddle_default_kwargs`.
* Proof: induction over defaults.
* Theorems: `C44_defaults_never_override`, `C44_defaults_lookup`.

### C45 Argument text is emitted faithfully (proved)

* Modelled: `args_to_str`, `kwargs_to_str`.
* Proof: reading the text back, for every lexer with the stated laws.
* Theorems: `C45_arguments_emitted`, `C45_args_emitted`, `C45_kwargs_emitted`.
* Remarks: Stated as: reading the emitted text back gives the arguments; for every reader that splits at commas outside brackets and quotes.

### C46 Prefix-only APIs keep their arguments (partial)

* Modelled: `ChangePrefixMatcher`, `ChangeAPIMatcher`.
* Proof: as C45; shipped entries by computation.
* Theorems: `C46_plain_call_keeps_arguments_partial`, `C46_double_star_negative`, `C46_unsupported_crash`, `C46_shipped_partial`.
* Remarks: False for calls with two ** arguments (only the last survives); proved when no keyword repeats.

### C47 Prefix-only APIs change only the prefix (partial)

* Modelled: `get_paddle_api`.
* Proof: leftmost replacement; shipped entries by computation.
* Theorems: `C47_prefix_replaced_partial`, `C47_again_negative`, `C47_shipped_partial`, `C47_int32`.
* Remarks: False for names in which the package text occurs again; among the shipped prefix-only entries that is one (C47_shipped_partial, C47_int32).

### C48 Generic conversion keeps dtype, out and requires_grad (partial)

* Modelled: `GenericMatcher.generate_code`.
* Proof: case analysis on the dictionary; truth-value semantics for `not`.
* Theorems: `C48_call_keywords`, `C48_given`, `C48_value`, `C48_statements`, `C48_negation_partial`, `C48_unbalanced_negative`, `C48_precedence_negative`.
* Remarks: Everything but the negation is proved for all dictionaries; the negation strips parentheses as characters and is wrong for some expressions.

### C49 Legacy reduction arguments follow PyTorch (partial)

* Modelled: `process_reduce_and_size_average`.
* Proof: comparison with the table of PyTorch, written out in the specification.
* Theorems: `C49_legacy_reduction`, `C49_variable_negative`.
* Remarks: Proved for literal flags; flags that are no literals are dropped or misread.

### C50 The receiver of a method is kept (partial)

* Modelled: receiver replacement through `re.sub` templates.
* Proof: escape and unescape are inverse on text without backslashes.
* Theorems: `C50_receiver_text`, `C50_receiver_kept_partial`, `C50_backslash_negative`, `C50_no_class`.
* Remarks: C50_receiver_text says for every receiver what becomes of it; it is kept if it has no backslash.

### C51 The mapping tables are coherent (proved)

* Modelled: all JSON tables.
* Proof: kernel computation over the complete tables.
* Theorems: `C51_tables_coherent`, `C51_plain_entries`, `C51_generic_targets_partial`, `C51_generic_negative`.
* Remarks: Over the complete shipped tables, by kernel computation on generated data. The two theorems on generic entries go beyond the statement.

### C52 Helper dim2perm is a transposition (proved)

* Modelled: emitted `dim2perm`; `AdjointMatcher`.
* Proof: the list is the identity composed with a transposition.
* Theorems: `C52_dim2perm`, `C52_fails_iff`, `C52_shape`, `C52_adjoint`.
* Remarks: TransposeMatcher is not referenced by the shipped table; AdjointMatcher, which is, writes the same swap.

### C53 Helper device2str normalises devices (partial)

* Modelled: emitted `device2str`; `TorchDevice2StrMatcher`.
* Proof: text replacement lemmas.
* Theorems: `C53_idempotent`, `C53_maps`, `C53_keyword`, `C53_code_number`, `C53_code_other`, `C53_keyword_negative`, `C53_variable_negative`.
* Remarks: False for device=0 given by keyword (mapped to cpu), and the matcher replaces cuda inside variable names. Proved otherwise.

### C54 torch.randint overloads are told apart (proved)

* Modelled: argument handling of `RandintMatcher`.
* Proof: case analysis against the PyTorch signatures.
* Theorems: `C54_randint`.
* Remarks: RandintMatcher is not referenced by the shipped table, which treats torch.randint as prefix-only.

### C55 Custom-op module names survive (partial)

* Modelled: names in `custom_op_transformer.py`.
* Proof: `lstrip` characterised by the first kept character.
* Theorems: `C55_loaded_partial`, `C55_imported_partial`, `C55_negative`, `C55_imported_negative`, `C55_loaded_iff`.
* Remarks: False of the code: lstrip removes a set of characters. Proved for the names that do not begin with a character of load_; C55_loaded_iff shows that these are exactly the good ones.

### C56 Helper lines stay inside a comprehension (partial)

* Modelled: `insert_multi_node` with a parent.
* Proof: case analysis; witness.
* Theorems: `C56_refused_partial`, `C56_accepted`, `C56_nested_negative`.
* Remarks: Only the direct parent is looked at, and only list and dict comprehensions: false for nested uses (C56_nested_negative).

### C57 Uses of removed imports are rewritten (partial)

* Modelled: `visit_Attribute`, `visit_Name` of the import pass.
* Proof: mutual induction over expressions.
* Theorems: `C57_uses_replaced_partial`, `C57_chain_negative`, `C57_place_negative`.
* Remarks: False of the code: names at places the visitor does not list and everything below two attributes of a call are not visited. Proved for expressions whose uses are at the visited places (Spec/Uses.lean, Seen). Names that were assigned a torch API are not modelled here.

### C58 The import pass leaves the other statements alone (proved)

* Modelled: import pass over blocks.
* Proof: mutual induction over statements.
* Theorems: `C58_other_statements`.
* Remarks: Statements inside expressions do not exist in Python, so imports occur in blocks only.

### C59 Min mode keeps exactly the prefix-only APIs (proved)

* Modelled: `in_min_mode`.
* Proof: computation over the tables, lifted to all names.
* Theorems: `C59_min_mode_keeps`, `C59_agrees`.
* Remarks: The agreement is stated for all names but the one for which the lookup fails (C34).

### C60 What has to come first stays first (partial)

* Modelled: as C31.
* Proof: case analysis on the module body.
* Theorems: `C60_first_stays_partial`, `C60_negative`.
* Remarks: False of the code as soon as a torch package is imported: the added import goes first. Proved otherwise.

### C61 The helper block holds the helpers and nothing else (proved)

* Modelled: the block text of `write_code`.
* Proof: equality with the list of lines.
* Theorems: `C61_block_lines`.

### C62 Min mode reports exactly the uses it does not keep (proved)

* Modelled: masking and marking together.
* Proof: invariant of `re.sub` across the rounds of the loop.
* Theorems: `C62_other_uses_visible`, `C62_uses_in_min_mode`, `C62_min_marks`, `C62_order_matters`.
* Remarks: For names whose components are words that are not only underscores, such that no first component is a later component of a kept API; all APIs of the tables but torch.torch.int32 are such. The per-line form is for lines without quotes.

### C63 It does not matter how an API is imported (partial)

* Modelled: import pass, `visit_Call`, `ChangePrefixMatcher`.
* Proof: composition of C27, C34, C46, C47, C57.
* Theorems: `C63_same_matcher_partial`, `C63_import_style_partial`, `C63_hidden_negative`.
* Remarks: False of the code when another import brings in a name that equals a component of the API (from scipy import fft hides torch.fft.fft). Proved for programs of regular imports and uses at the visited places; that the call gets to the matcher of the API is proved for all APIs, the converted call for the prefix-only ones; missing are torch.torch.int32 and the one name for which the lookup fails.

### C64 Helper lines run when the use runs (partial)

* Modelled: a small language (loops, exceptions, `with`, functions) with helper lines; `record_scope`, insertion before the statement.
* Proof: simulation by induction over expressions and statements, for every meaning of the operations.
* Theorems: `C64_straight_partial`, `C64_functions_partial`, `C64_program_partial`, `C64_generated_partial`, `C64_fixed_name_partial`, `C64_while_test_negative`, `C64_guard_negative`, `C64_order_negative`, `C64_fixed_name_negative`.
* Remarks: False of the code for calls in the test of a while, in a branch of a conditional expression (so also on the right of and/or), after an assignment in the same expression, and for two calls in one statement that share a fixed helper name. Proved for all other programs of a small language (assignment, if, while, for, break, continue, return, raise, try, with, functions that call each other; strict operations); global variables in functions, lambda and comprehensions are not in it.

### C65 Unsupported uses are listed under their name (proved)

* Modelled: `visit_Call`, `visit_Attribute`, the table of unsupported APIs.
* Proof: case analysis over the decisions and answers.
* Theorems: `C65_calls_reported`, `C65_attributes_reported`.

### C66 What is not converted is not changed (partial)

* Modelled: `parse_args_and_kwargs` with its effect on the list of keywords, `get_paddle_nodes`, `visit_Call`, `trans_class_method`.
* Proof: induction over the keywords, witness with the shipped entry of `torch.Tensor.median`.
* Theorems: `C66_only_none_lost`, `C66_only_none_lost_package`, `C66_left_unchanged_partial`, `C66_left_unchanged_package_partial`, `C66_negative`, `C66_reported_negative`, `C66_removed_statement`, `C66_removed_statement_method`, `C66_silent`, `C66_no_delete_shipped`.
* Remarks: False of the code: a keyword of an unsupported parameter with the value None is taken out of the call itself while the arguments are read, also if the call is then left alone. Nothing else can be lost, and a call without such a keyword is left exactly as it was. Matchers with their own get_paddle_nodes are not covered.

### C67 The name of a variable does not matter (partial)

* Modelled: `trans_class_method`, `get_paddle_nodes`.
* Proof: case analysis; the negative theorem holds for every entry with required parameters.
* Theorems: `C67_other_names_partial`, `C67_self_negative`, `C67_shift_negative`, `C67_lost_negative`.
* Remarks: False of the code: a first argument self is taken for the receiver of a call through the class. Proved for calls whose first argument is anything else.

### C68 Splitting a tensor gives the parts of PyTorch (partial)

* Modelled: the emitted helper, `paddle.split` after its documentation.
* Proof: induction over the parts.
* Theorems: `C68_split_partial`, `C68_negative`.
* Remarks: False of the code: the size is divided rounding down and the parts are made equal. C68_split_partial shows that the result is right exactly if the part size divides the size; otherwise it is wrong without an error or fails (C68_negative).

### C69 The cast table is that of PyTorch (proved)

* Modelled: the emitted table.
* Proof: kernel computation over all pairs.
* Theorems: `C69_can_cast`.
* Remarks: For the types that both libraries have.

### C70 Softmax without an axis uses the axis of PyTorch (partial)

* Modelled: the emitted helpers and layers with the defaults of the table.
* Proof: case analysis on the number of axes.
* Theorems: `C70_layers`, `C70_given`, `C70_log_softmax_partial`, `C70_softmin_partial`, `C70_negative`.
* Remarks: False of the code for LogSoftmax() (the table sets axis=0) and softmin(x) (the number of axes is negated). Both theorems give exactly the numbers of axes for which it is right; the other cases are proved.

### C71 index_copy copies the slices that PyTorch copies (partial)

* Modelled: the emitted lines, `paddle.scatter` after its documentation.
* Proof: writes to pairwise different rows commute; the last row to write is missed otherwise.
* Theorems: `C71_index_copy_partial`, `C71_first_axis`, `C71_axes_partial`, `C71_negative`, `C71_last_negative`, `C71_names_negative`.
* Remarks: False of the code: the offset of a block is a multiple of the number of indices, not of the size of the axis. Proved for one block (the first axis) and if the two are equal; C71_negative shows for all other nonempty index lists and more than one block that the result is wrong for some tensor. False too for the axis -1 (an exception); all other axes, also negative ones, are cut at the right place. The result is given to out by paddle.assign, which is not modelled.

### C72 narrow_copy takes the slices that PyTorch takes (proved)

* Modelled: the emitted line, `paddle.slice` after its documentation.
* Proof: integer arithmetic on the ends.
* Theorems: `C72_narrow_copy`.

### C73 Names keep their meaning through the file (partial)

* Modelled: the tables of names during the import pass and after it, on a language of bindings and calls.
* Proof: simulation: every run of the source is a run of the result; induction over programs and runs.
* Theorems: `C73_same_calls_partial`, `C73_rebound_negative`, `C73_parameter_negative`, `C73_function_negative`, `C73_order_negative`.
* Remarks: False of the code: the tables of names belong to the file, have no scopes and forget nothing. Proved, for every run, if every such name has one meaning in the file and is assigned to others only after its import. Functions are run where they are defined in the model; canonical names and min mode are left out (C34, C57, C59).

### C74 Classes around C++ extensions are recognised across files (partial)

* Modelled: both custom-op passes on the relevant items of files, with the state shared by the files.
* Proof: identity by induction over items and files; computation with symbolic names.
* Theorems: `C74_unrelated_partial`, `C74_no_extensions`, `C74_used_partial`, `C74_order_negative`, `C74_name_negative`, `C74_same_file_negative`.
* Remarks: False of the code: the result depends on the order of the files, classes are matched by their bare name, and uses in the file of the class stay while the class goes. Proved: files unrelated to extensions and classes by name are left alone, for every state; a project of three files in the order of dependencies is converted, for all names.

### C75 No argument is lost (partial)

* Modelled: generate_code of all matcher classes but those of ten entries, as programs of a small language that reads, sets, pops and renames dictionary entries, tests texts and fills templates (K); all 516 table entries.
* Proof: K.check runs such a program on a description of all calls of an API at once; check_sound lifts what holds at its ends to every call; run in the kernel for every entry and parameter; parse_args_and_kwargs is linked by parsed; witnesses.
* Theorems: `C75_covered`, `C75_arguments_kept_partial`, `C75_text_kept_partial`, `C75_user_call_partial`, `C75_receiver_kept_partial`, `C75_lost_negative`, `C75_weights_negative`.
* Remarks: False of the code for the arguments in Spec.lostTable and for weights of the torchvision models (each with a witness). Proved for all other arguments of the 516 shipped entries whose matcher is modelled (131 classes); arguments that the table maps to nothing and mere hints (device, layout, ...) are excepted. Missing: ten entries (notModelled); prefix-only and rename-only entries are in C46, C66.

### C76 Every argument is evaluated once (partial)

* Modelled: as C75.
* Proof: as C75, with upper bounds for the occurrences at the ends.
* Theorems: `C76_arguments_once_partial`, `C76_receiver_once_partial`, `C76_repeated_negative`, `C76_receiver_negative`.
* Remarks: False of the code for the arguments in Spec.repeated and the receivers in Spec.repeatedRecv, each with a witness. Proved for all others of the 516 entries of C75.

### C77 A valid call does not make a matcher fail (partial)

* Modelled: as C75, a missing key or a failed assertion as an error.
* Proof: the same check in strict mode, where every key that is read must be there; witnesses.
* Theorems: `C77_no_error_partial`, `C77_failing_negative`.
* Remarks: False of the code for torch.Tensor.type, torch.autograd.Function.backward and OneCycleLR (a witness for each). Proved for all other entries of C75. Exceptions are those of dictionary accesses and of the assertion on paddle_api; the parse of the code that is written is not included.

### C78 The code of a matcher can be parsed (partial)

* Modelled: tokens and a grammar of Python (`Spec/Python.lean`); the code as in C75.
* Proof: the tokens of a text with gaps are computed with the gaps as tokens of their own, which is right because what comes before and after a gap cannot run into the text in it (`lex_inside`, `alex_sound`); a parser for such tokens is proved sound for the grammar (`parse_sound`) and is run by the kernel on every path of every matcher of the table; witnesses.
* Theorems: `C78_code_parses_partial`, `C78_plain_code_parses_partial`, `C78_code_parses_negative`, `C78_index_copy_negative`.
* Remarks: False of the code: the parentheses at the ends of an argument are removed before not is put in front (requires_grad=f(x) gives not f(x), with the last parenthesis missing), and the code for torch.index_copy assigns to its first argument. Proved for all prefix-only and rename-only entries, and for the 516 entries of C75 if the edited arguments are still expressions and the first argument of torch.index_copy can be assigned to. Texts are read by a tokenizer and a grammar for a part of Python (Spec/Python.lean); that ast.parse accepts what they accept is trusted. Missing: the ten entries of notModelled.

### C79 Tensor.max and Tensor.min compute what PyTorch computes (partial)

* Modelled: `get_paddle_class_nodes` of `TensorMaxMatcher` and `TensorMinMatcher`, the helpers `_Tensor_max` and `_Tensor_min`, the signatures of the Paddle functions.
* Proof: case analysis over the call forms of PyTorch (`Spec/Reduce.lean`); witnesses.
* Theorems: `C79_reduction_partial`, `C79_double_star_negative`, `C79_star_negative`.
* Remarks: False of the code for calls with ** (a TypeError) and for starred arguments next to others. Proved for all other forms. What paddle.max, argmax and maximum do with their arguments is modelled after their signatures. With an axis the arguments are written twice, so their effects happen twice.

### C80 How an argument is written does not decide the code (partial)

* Modelled: as C75, with two calls side by side.
* Proof: the two runs of a matcher agree as long as they only test texts that are the same or tests that both fail (`same_sound`); that this is so on every path is checked by the kernel for every entry of the table; witnesses.
* Theorems: `C80_spelling_partial`, `C80_text_negative`, `C80_literal_needed_partial`.
* Remarks: False of the code for the six arguments in Spec.textTable, in whose text the matcher looks for something (a witness for each). Proved for all other arguments of the 516 entries of C75; the arguments in Spec.literal are compared with None, booleans and strings, which is allowed (each entry of the table is needed). Missing: the ten entries of notModelled.

### C81 A flag that becomes an option keeps its meaning (partial)

* Modelled: as C75; the options of Paddle in `Spec/Flags.lean`.
* Proof: symbolic execution of the matcher with the text of the flag known, or known to be no literal (`probe_sound`), run by the kernel on the entries; witnesses are all valid calls.
* Theorems: `C81_literal_flag_partial`, `C81_no_flag`, `C81_variable_flag_partial`, `C81_qr_negative`, `C81_rnn_negative`.
* Remarks: False of the code: Tensor.qr inverts its flag in every call, and bidirectional is ignored by RNN and LSTM unless it is a literal. Proved for the flags of the data sets MNIST, FashionMNIST, CIFAR10 and CIFAR100 with literals and expressions, and for RNN and LSTM with literals. What the options of Paddle mean is taken from its documentation (Spec/Flags.lean).

### C82 A negated flag has the opposite value (partial)

* Modelled: as C75; the opposite parameters and a reader of boolean expressions with their precedence in `Spec/Negation.lean`.
* Proof: as C81, for the matcher classes; the reader is shown to read `not t` as the negation if `t` is an operand, by induction on its steps and on the text; witnesses are all valid calls.
* Theorems: `C82_negated_flag`, `C82_no_flag`, `C82_svd_partial`, `C82_requires_grad_partial`, `C82_svd_negative`, `C82_requires_grad_negative`, `C82_solve_triangular_negative`.
* Remarks: False of the code for expressions in parentheses where the matcher removes the parentheses (requires_grad, some of svd: not a or b for the negation of a or b), and for left of solve_triangular, which is not the opposite of transpose. Proved for time_major, fftbins, sync_op, exclusive and set_to_zero with every boolean expression, and for the others with names and literals. Missing: expressions with other operators than and, or, not (comparisons, calls).

### C83 Excluded packages are left alone (partial)

* Modelled: the option in `Model/Exclude.lean`, the passes as in C27, C57 and C63, the shipped tables.
* Proof: the loop over the packages by induction; a name of another package makes the full name begin with `NonTorchClass`, and no name of the tables does (checked by the kernel on the first letters); C63 with both tables; the negatives hold for every entry of the table.
* Theorems: `C83_option`, `C83_left_alone_partial`, `C83_others_partial`, `C83_dotted_negative`, `C83_methods_negative`.
* Remarks: False of the code: after import torchvision.transforms (a dotted name without as) calls by the full name are converted although torchvision is excluded and its import stays, and with torch excluded every prefix-only tensor method in a file with another torch package ends the run with an AssertionError. Proved: which lists the option accepts and what it takes out of the table; imports of excluded packages stay, and uses of the names that they bring in are left alone; uses of the other packages get the same matcher as without the option.

### C84 Converting the result again changes nothing (partial)

* Modelled: the import pass (as C27-C31), uses (C57) and dispatch (C32) with the shipped tables; the result is read back as a program whose first statements are the added imports.
* Proof: what the first run leaves is a fixpoint of the statements (induction over blocks); the added imports are followed through the second run by induction; names that stand for themselves are replaced by themselves, and the alias table has no name that begins with one of these packages (first letters, by the kernel).
* Theorems: `C84_second_run_partial`, `C84_order_negative`, `C84_mapped_negative`.
* Remarks: False of the code: the second run puts the imports of packages such as os in front of import paddle, and modules of audiotools get their new prefix again in every run. Proved for programs of regular imports: the result is the same up to the order of the added imports, and exactly the same if none of them is such a package; no expression, call or attribute is changed. Results with marked lines are not Python and cannot be converted again.

### C85 A program means the same after the conversion (partial)

* Modelled: the second pass over whole expressions for three matchers (`Model/Basic.lean`), with the argument parsing and code generation of `GenericMatcher` as in C01; the import pass as in C31 and C57; the shipped tables; programs, imports, meanings and what the tables say about two libraries in `Spec/Whole.lean`. Assumed: printing an expression and parsing the text gives the expression (`Faithful`, shown satisfiable).
* Proof: induction over the expression: what the two passes make of a value, of the function of a call and of the arguments has the same meaning (`Like`); the code of a generic call is followed from the node through `parse_args_and_kwargs` and the dictionary to the new node (`Lemmas/GenericCall.lean`); a name of the program begins no name of the tables (first letters, by the kernel); witness.
* Theorems: `C85_meaning_partial`, `C85_reach`, `C85_fits`, `C85_capture_negative`.
* Remarks: False of the code for a program with a variable called paddle: the uses of the variable become uses of the package. Proved for every program whose library uses are APIs of ChangePrefixMatcher and ChangeAPIMatcher (as values, functions and methods, by any import style, around other calls) and calls of APIs of GenericMatcher that fit the parameters of the entry (positional and keyword arguments, renamed and dropped arguments, defaults, dtype), and members of os, einops and setuptools that the tables do not know, at places to which the passes go: every meaning of the syntax in which the libraries agree as the tables say is kept. C85_reach: this covers every entry of the three kinds but two and the string literals. Missing: APIs with other matchers (C46, C75 and others), generic calls whose result needs several statements (out, requires_grad; C41, C42) or pin_memory, own names that are names of packages, imports after a use, the places of the negations of C57 and C63, local variables that hide an import (C73). For the first two matchers an argument turned into text and parsed again is taken to be the same node.

### C86 Functions of the operating system are left alone (partial)

* Modelled: dispatch with the shipped tables, `TensorRenameMatcher` (`Model/Rename.lean`); the functions of `os` are listed in `Spec/Members.lean`.
* Proof: no row of the tables is a class or os followed by one of the functions (by the kernel, over the tables); a name that another import hides becomes NonTorchClass as in C32; the negation holds for every call of os.rename.
* Theorems: `C86_os_partial`, `C86_rename_negative`.
* Remarks: False of the code for os.rename: in a file that imports torch and os every call of it is taken for torch.Tensor.rename and reported as not supported. Proved for all other functions of os (Python 3.11 on Linux), of os.path and the methods of os.environ but get, which has an entry of its own, in every file.

### C87 A use as a value does not stop the run (partial)

* Modelled: the visitor of attributes with `get_paddle_api` of all matchers that the tables name (`Model/Value.lean`), the shipped tables.
* Proof: a matcher comes from an entry (no wildcard applies to torch packages); the entries are checked row by row by the kernel.
* Theorems: `C87_value_partial`, `C87_nameless_negative`, `C87_backward_negative`.
* Remarks: False of the code: anything below an API that has a matcher but no name in Paddle (torch.addcmul.__doc__, torch.autograd.Variable._execution_engine) ends the run with an exception, and so does torch.autograd.Function.backward as a value; for the name of DataLoader see C34. Proved for all other names.

### C88 What is assigned to can still be assigned to (partial)

* Modelled: as C87; targets of assignments in `Spec/Value.lean`.
* Proof: the Paddle texts of the entries are checked row by row by the kernel; the attributes of classes are ChangePrefixMatcher, which keeps the node, but for the four.
* Theorems: `C88_target_partial`, `C88_call_negative`.
* Remarks: False of the code for real, imag, is_sparse and is_sparse_csr: x.real = y becomes x.real() = y. Proved for all other attributes but those whose text in Paddle is a string, and one regular expression, which are no targets in PyTorch programs.

### C89 Emitted code uses only names that exist (partial)

* Modelled: the code of the matchers as in C75; the texts of the helpers line by line in `Model/HelperText`; a small reader of names in `Spec/Visible.lean`.
* Proof: the reader is run on the code of every path of every entry by the kernel, texts of arguments are skipped, `k=v, ...` is handled for every order of the arguments; where the helper is asked for on some paths only, the matcher without these paths is checked for no names. Missing: arguments whose text a matcher edits (their names count as the user's), matchers that are not modelled.
* Theorems: `C89_names_partial`, `C89_index_copy_negative`, `C89_decode_jpeg_negative`.
* Remarks: False of the code for torch.index_copy (reads a variable index) and torchvision.io.decode_jpeg without device (writes .to(cpu)). Proved for all other entries with a modelled matcher.

### C90 A helper is found where it is used (partial)

* Modelled: the texts as in C89, the written files as in C03 and C61; the last definition of a name at the beginning of a line in `Spec/Visible.lean`.
* Proof: the text is cut into the user's imports, the helpers and the rest; that any two helpers agree on common names is checked by the kernel; induction over the requests. Missing: definitions inside `if` and the like, tuples of targets, the second and later names of one import, `isort`.
* Theorems: `C90_single`, `C90_dir_partial`, `C90_user_single_partial`, `C90_code_names_partial`, `C90_dir_negative`, `C90_single_negative`, `C90_user_negative`.
* Remarks: False in directory mode for helper names that begin with _ (three APIs: import * does not bring them), if the user defines a helper name, and for user names that a helper defines (repeat). Proved in all other cases, with the text of the file before isort.

### C91 A converted call overwrites no variable (partial)

* Modelled: the code of the matchers as in C75; a small reader of assignments in `Spec/Assigned.lean`.
* Proof: the reader is run on the code of every path of every entry by the kernel, in the same check as C89; after the first call of a line without further lines nothing can be assigned, whatever the arguments are; otherwise `k=v, ...` is shown not to matter for every order of the arguments. Texts of arguments count as one word, so that an argument as a target is seen. Missing: assignments inside the texts of arguments (they are the user's), effects on objects (`x.stop_gradient = ...`), matchers that are not modelled.
* Theorems: `C91_assigned`, `C91_hygiene_partial`, `C91_variable_partial`, `C91_scratch_negative`, `C91_index_copy_negative`, `C91_generated_negative`.
* Remarks: False of the code for 25 matchers that assign fixed names (out1, tmp_lr, res, buffer, i, os, ...; Spec.Assigned.scratch, a witness for each), for torch.index_copy, which assigns a reshaped tensor to its first argument, and for variables that look like generated names (out_0). Proved: nothing else is assigned, for every entry with a modelled matcher; so a variable with any other name keeps its value.

### C92 Formulas compute the function (partial)

* Modelled: the code of the matchers as in C75; a reader of arithmetic expressions in `Spec/Formula.lean`; numbers with infinities and NaN, functions of Paddle and of PyTorch on them in `Spec/Floats.lean`.
* Proof: the expression of the code of every path of the entries is read by the kernel; the rest is real analysis: the error function is the integral (Mathlib), its bounds, its inverse and the bound of erfcx are proved. Idealised: one zero, results are exact up to a largest number `M` and infinite above (`cut M`); the theorems about rounding are for any rounding function. Element by element: shapes, broadcasting and types are not modelled, a product of matrices is one unknown number. An inserted text is one operand, as in C82.
* Theorems: `C92_erfc`, `C92_exp2`, `C92_ndtr`, `C92_ndtri`, `C92_expit_partial`, `C92_erfcx_partial`, `C92_xlogy_partial`, `C92_xlog1py_partial`, `C92_logaddexp2_partial`, `C92_addcmul`, `C92_addcdiv`, `C92_add_product_partial`, `C92_expit_negative`, `C92_xlogy_negative`, `C92_logaddexp2_negative`, `C92_underflow_negative`, `C92_erfc_negative`, `C92_add_product_negative`.
* Remarks: False of the code: expit is NaN where exp(x) overflows, erfcx is infinite where exp(x*x) overflows, xlogy(0, 0) is NaN, logaddexp2 overflows and underflows, erfc is 0 for large x once erf(x) is rounded to 1, addmv/addr/addbmm with beta=0 give NaN for a tensor with NaN. Proved, in arithmetic that is exact up to a largest number, for all numbers, infinities and NaN: erfc, exp2, ndtr, ndtri; exactly where expit, erfcx, xlogy, xlog1py and addmv/addr/addbmm are right; logaddexp2, addcmul and addcdiv without overflow.

### C93 Functions of matrices (partial)

* Modelled: `linalg_lu_solve`, the transposed factor of `svd` and `PositiveDefiniteTransform` in `Model/Batch.lean` on matrices of Mathlib, with one batch axis; `paddle.linalg.lu_solve` as the solution by the inverse, `cholesky` as any function that finds a factor.
* Proof: algebra of matrices over any field with a conjugation; uniqueness of the Cholesky factor by inverses of triangular matrices. The call of the helper is checked in every path of the entry. Not modelled: rounding, types, `out`, `full_matrices=True`, more than one batch axis.
* Theorems: `C93_lu_solve_call`, `C93_lu_solve_left`, `C93_lu_solve_left_batch`, `C93_lu_solve_right_partial`, `C93_lu_solve_batch_negative`, `C93_lu_solve_shape_negative`, `C93_svd_partial`, `C93_svd_negative`, `C93_positive_definite_partial`, `C93_positive_definite_inv_partial`, `C93_positive_definite_negative`.
* Remarks: False of the code for batches of matrices: lu_solve with left=False and PositiveDefiniteTransform reverse all axes (.T) and give wrong values or an exception, svd raises an exception (.t()). Proved: lu_solve with left=True for matrices and batches; lu_solve with left=False, svd (reduced) and PositiveDefiniteTransform with its inverse for single matrices.

### C94 Boxes stay with their image (partial)

* Modelled: the helper of `BoxesConvertMatcher` in `Model/Boxes.lean`: the boxes and the numbers of boxes that are given to Paddle, and the image that Paddle uses for each row.
* Proof: lists: the owners of the rows are a sorted permutation of the image numbers. Not modelled: tensors as numbers, tuples of boxes (an exception in the code).
* Theorems: `C94_list`, `C94_tensor_partial`, `C94_row_count`, `C94_numbers`, `C94_tensor_negative`, `C94_aligned_negative`.
* Remarks: False of the code for a tensor of boxes whose rows are not sorted by image (each box is used with another image), and for roi_align without aligned. Proved: right for every list of boxes; right for a tensor exactly if its rows are sorted.

### C95 Rotary embeddings (partial)

* Modelled: `apply_rotary_position_embeddings` in `Model/Rotary.lean` on lists of lists over any commutative ring, with broadcasting along the axis of positions.
* Proof: by indices of lists. Not modelled: rounding, types, `inplace`.
* Theorems: `C95_rotary_partial`, `C95_single_negative`, `C95_longer_negative`, `C95_parameters_negative`.
* Remarks: False of the code for more rows of cos and sin than positions (one position: a result of the wrong shape; more: an exception) and for the parameters besides x, cos and sin. Proved: the rotary embedding for as many rows as positions.

### C96 reduce_scatter_tensor gives every process its rows (partial)

* Modelled: `reduce_scatter_tensor` in `Model/Scatter.lean` on rows, with `paddle.split` and `paddle.distributed.reduce_scatter` as stated there (in particular None is no operation, and a list must have one part for each process of the group).
* Proof: induction over the inputs, the operation is any function. Not modelled: different calls in different processes, shape of `output`.
* Theorems: `C96_world_partial`, `C96_group_negative`, `C96_operation_negative`, `C96_wait_negative`, `C96_default_call`.
* Remarks: False of the code for every group but that of all processes, without op (the default None is given to Paddle), and for async_op (the default does not wait, and no handle is given). Proved: the outputs for all processes with an operation.

### C97 A converted project is complete (partial)

* Modelled: `run` of C13 followed by `write_code` on the file tree in `Model/Complete.lean`, and the line `sys.path.append(...)` of base.py; the requested helpers are any list of texts.
* Proof: C13 and C03, and that `write_code` changes one path; raw string literals are read by `readRaw`, modules are searched for by `findModule` (Spec/Whole.lean). Not modelled: isort, `.pth` files, modules that were imported before.
* Theorems: `C97_dir_partial`, `C97_single`, `C97_stopped`, `C97_path_partial`, `C97_search_partial`, `C97_own_negative`, `C97_quote_negative`.
* Remarks: False of the code for a project with a file paddle_utils.py of its own in the top directory (the output has the helpers in its place), for output directories with a quote in their path or a backslash at its end, and for scripts in whose directory another paddle_utils is found first. Proved for all other projects: the output has the image of every file and the helper file with every helper that was requested; the import line names the output directory. The helpers that a run requests are any list of texts; isort is a parameter.

### C98 A parameter that is left out has the value of PyTorch (partial)

* Modelled: the decision trees of C75 for the matchers, with the entries of `api_mapping.json`; tables of parameters with the values that PyTorch and Paddle take (`Spec/Options.lean`), and a reader of constants (`readValue`).
* Proof: the abstract run of a decision tree for calls without the parameter, and for calls with it (`rule_table`); `default_table` goes through all defaults of the table. The values of PyTorch and Paddle are facts from their documentation and not part of /repo.
* Theorems: `C98_omitted_partial`, `C98_given`, `C98_covered`, `C98_negative`, `C98_printoptions_negative`.
* Remarks: False of the code for the parameters of diffRules (among them lr of Adamax, ASGD and Rprop, align_corners of affine_grid, training of rrelu and alpha_dropout, aligned of roi_align, affine of InstanceNorm, the mode of median) and for torch.set_printoptions. Proved for the parameters of optRules, which has every default of api_mapping.json. The values that PyTorch and Paddle take are from their documentation; parameters in neither table are not covered.

### C99 A converted training loop has the same learning rates (partial)

* Modelled: the arguments with which the code makes a scheduler (`Schedule.convert`), and its text (C75); the schedulers of PyTorch, which change the learning rate in steps, and those of Paddle, which compute it from the number of steps (`Spec/Schedule.lean`), over an ordered field.
* Proof: a simulation between the two optimizers, by induction over the program (`sim_trace`); the texts by the abstract run of the decision trees. `C99_linear` gives the closed form of LinearLR by induction over the steps.
* Theorems: `C99_trace_partial`, `C99_linear`, `C99_constant_code`, `C99_learning_rate_code`, `C99_one_cycle_code`, `C99_older_negative`, `C99_two_negative`, `C99_constant_zero_negative`, `C99_one_cycle_negative`, `C99_key_negative`.
* Remarks: False of the code for two schedulers that make steps in turn (only the last one counts in the converted program), for ConstantLR with total_iters=0, and for OneCycleLR without div_factor or final_div_factor (another learning rate at the end, or a KeyError while converting). Proved for programs in which only the newest scheduler makes steps, with the calls of Call.Fit. Numbers are those of an ordered field, not floats; the behaviour of the schedulers of PyTorch and Paddle is from their documentation; last_epoch, state dictionaries and groups of parameters are not modelled.

### C100 Projects of one run do not overwrite each other (partial)

* Modelled: the loop of `--separate_convert` over the runs of C97, on the file tree of C13.
* Proof: induction over the list of projects (`loop`): a run leaves the hypotheses of the following ones true (`Projects.step`), and each place of the output is settled by the last project that has an entry there.
* Theorems: `C100_last`, `C100_apart_partial`, `C100_negative`, `C100_helpers_negative`.
* Remarks: False of the code: all projects get the same output directory, so a file that two of them have at the same relative path is kept from the last one only, and so are the helpers. C100_last says what is left; C100_apart_partial proves the claim for projects without common files of which at most one requests helpers. Projects that are single files, and those that Ready or Projects exclude (a directory and a file of the same name, an own paddle_utils.py), are not covered.

### C101 Calls that are read argument by argument keep their meaning (partial)

* Modelled: the five matchers that override `get_paddle_nodes` and read the arguments themselves (`Model/Direct`).
* Proof: the dictionary of the keywords is the list of the keywords (`Accepted.parse`); the text is read back with the reader of C45 and, for products, with one that splits at `@` (induction over the operands, `operands_fold`); any bracketing of a product has the value of the product from left to right (induction, `C101_chain_value`).
* Theorems: `C101_checkpoint_partial`, `C101_hub_load_partial`, `C101_hub_load_negative`, `C101_stft_partial`, `C101_stft_positional_negative`, `C101_stft_variable_negative`, `C101_chain_matmul_partial`, `C101_chain_value`, `C101_chain_refused`, `C101_chain_starred_negative`, `C101_make_tensor_partial`, `C101_make_tensor_bounds_negative`, `C101_make_tensor_out_negative`, `C101_make_tensor_ignored_negative`, `C101_make_tensor_quotes_negative`, `C101_entries`.
* Remarks: False of the code for eight kinds of calls (the negatives). The partial theorems give the text of all other calls; that PaddlePaddle does the same with it is only taken from its signatures. A receiver of stft with line ends or backslashes is covered by C50.

### C102 Operations on lists of tensors act on each tensor (partial)

* Modelled: the four helpers on a store of tensors (`Model/Foreach`), the four matchers (`Model/Template`).
* Proof: the code by a check of all entries of the table (`foreach_table`); the helpers by induction over the list, with the new tensors above the old ones in the store, or with the number of times a tensor is in the list.
* Theorems: `C102_code`, `C102_operator_partial`, `C102_method_partial`, `C102_erfc`.
* Remarks: The code is proved for every entry torch._foreach_f and every list, and the helpers for every list and store. Missing: that the function of Paddle with the same name computes for one tensor what PyTorch does; it is the hypothesis MakesNew or Changes of the partial theorems. The helpers are transcribed from their texts, not executed by a model of Python.

## Deviations of the code

Each of these theorems exhibits an input on which the code does not do what the property says; the comment of the theorem
describes it.

`C03_once_negative`, `C03_hang_negative`, `C04_separator_negative`, `C05_comment_negative`, `C05_future_negative`, `C06_negative`, `C09_inside_negative`, `C14_parent_negative`, `C19_negative`, `C19_inside_negative`, `C19_file_negative`, `C22_table_negative`, `C23_negative`, `C23_cpp_negative`, `C24_negative`, `C27_reserved_negative`, `C28_after_local_negative`, `C28_substring_negative`, `C29_after_local_negative`, `C30_negative`, `C33_wildcard_negative`, `C34_dataloader_negative`, `C35_renaming_negative`, `C36_removed_negative`, `C37_batch_negative`, `C38_handler_negative`, `C38_decorator_negative`, `C38_async_negative`, `C40_leading_star_negative`, `C41_skipped_negative`, `C41_skip_negative`, `C41_double_star_negative`, `C42_skip_negative`, `C43_collision_negative`, `C46_double_star_negative`, `C47_again_negative`, `C48_unbalanced_negative`, `C48_precedence_negative`, `C49_variable_negative`, `C50_backslash_negative`, `C51_generic_negative`, `C53_keyword_negative`, `C53_variable_negative`, `C55_negative`, `C55_imported_negative`, `C56_nested_negative`, `C57_chain_negative`, `C57_place_negative`, `C60_negative`, `C63_hidden_negative`, `C64_while_test_negative`, `C64_guard_negative`, `C64_order_negative`, `C64_fixed_name_negative`, `C66_negative`, `C66_reported_negative`, `C67_self_negative`, `C67_shift_negative`, `C67_lost_negative`, `C68_negative`, `C70_negative`, `C71_negative`, `C71_last_negative`, `C71_names_negative`, `C73_rebound_negative`, `C73_parameter_negative`, `C73_function_negative`, `C73_order_negative`, `C74_order_negative`, `C74_name_negative`, `C74_same_file_negative`, `C75_lost_negative`, `C75_weights_negative`, `C76_repeated_negative`, `C76_receiver_negative`, `C77_failing_negative`, `C78_code_parses_negative`, `C78_index_copy_negative`, `C79_double_star_negative`, `C79_star_negative`, `C80_text_negative`, `C81_qr_negative`, `C81_rnn_negative`, `C82_svd_negative`, `C82_requires_grad_negative`, `C82_solve_triangular_negative`, `C83_dotted_negative`, `C83_methods_negative`, `C84_order_negative`, `C84_mapped_negative`, `C85_capture_negative`, `C86_rename_negative`, `C87_nameless_negative`, `C87_backward_negative`, `C88_call_negative`, `C89_index_copy_negative`, `C89_decode_jpeg_negative`, `C90_dir_negative`, `C90_single_negative`, `C90_user_negative`, `C91_scratch_negative`, `C91_index_copy_negative`, `C91_generated_negative`, `C92_expit_negative`, `C92_xlogy_negative`, `C92_logaddexp2_negative`, `C92_underflow_negative`, `C92_erfc_negative`, `C92_add_product_negative`, `C93_lu_solve_batch_negative`, `C93_lu_solve_shape_negative`, `C93_svd_negative`, `C93_positive_definite_negative`, `C94_tensor_negative`, `C94_aligned_negative`, `C95_single_negative`, `C95_longer_negative`, `C95_parameters_negative`, `C96_group_negative`, `C96_operation_negative`, `C96_wait_negative`, `C97_own_negative`, `C97_quote_negative`, `C98_negative`, `C98_printoptions_negative`, `C99_older_negative`, `C99_two_negative`, `C99_constant_zero_negative`, `C99_one_cycle_negative`, `C99_key_negative`, `C100_negative`, `C100_helpers_negative`, `C101_hub_load_negative`, `C101_stft_positional_negative`, `C101_stft_variable_negative`, `C101_chain_starred_negative`, `C101_make_tensor_bounds_negative`, `C101_make_tensor_out_negative`, `C101_make_tensor_ignored_negative`, `C101_make_tensor_quotes_negative`.

## Seeded bugs

`seeded/LOG.jsonl` has one line per wrong program: the model is edited in a copy outside this repository and rebuilt.
`failed` are the declarations whose own proof no longer checks; `failed_through_lemmas` are the theorems of properties whose
proof uses one of these, found from the constants the proofs depend on. A proof that rests on a failed lemma is lost, but
this alone does not show that the theorem became false. An entry with neither a failed theorem of its claim nor one resting on
a failed lemma is a survivor; `tightened` says which statement was added or strengthened, and the attempt is repeated after
that.

## Axioms of each theorem

No axioms:
`C03_hang_negative`, `C03_once_negative`, `C06_negative`, `C24_negative`, `C35_renaming_negative`, `C37_batch_negative`, `C49_variable_negative`, `C53_keyword_negative`, `C53_variable_negative`, `C55_imported_negative`, `C55_negative`, `C62_order_matters`, `C70_given`, `C71_names_negative`, `C94_tensor_negative`, `C97_quote_negative`.

`propext`:
`C04_separator_negative`, `C05_comment_negative`, `C05_future_negative`, `C09_inside_negative`, `C101_chain_refused`, `C101_make_tensor_quotes_negative`, `C101_stft_variable_negative`, `C14_parent_negative`, `C15_requirements_written`, `C17_no_exclude`, `C22_table_negative`, `C23_cpp_negative`, `C23_negative`, `C27_reserved_negative`, `C35_package_attribute`, `C39_all_visited`, `C39_balanced`, `C40_leading_star_negative`, `C41_double_star_negative`, `C41_skip_negative`, `C42_skip_negative`, `C43_collision_negative`, `C46_double_star_negative`, `C47_again_negative`, `C48_negation_partial`, `C48_precedence_negative`, `C50_backslash_negative`, `C50_no_class`, `C50_receiver_kept_partial`, `C50_receiver_text`, `C53_code_other`, `C53_keyword`, `C57_chain_negative`, `C57_place_negative`, `C61_block_lines`, `C64_fixed_name_negative`, `C64_guard_negative`, `C64_order_negative`, `C66_negative`, `C66_removed_statement`, `C66_removed_statement_method`, `C66_reported_negative`, `C66_silent`, `C67_lost_negative`, `C67_shift_negative`, `C69_can_cast`, `C73_function_negative`, `C73_order_negative`, `C73_parameter_negative`, `C73_rebound_negative`, `C74_name_negative`, `C74_order_negative`, `C74_same_file_negative`, `C79_double_star_negative`, `C79_star_negative`, `C93_lu_solve_shape_negative`, `C94_list`, `C96_operation_negative`, `C97_stopped`.

`Quot.sound`, `propext`:
`C02_names_count_up`, `C03_helpers_complete`, `C04_insertion_keeps_file`, `C06_first_run_partial`, `C06_no_leftovers`, `C101_chain_starred_negative`, `C101_chain_value`, `C101_entries`, `C101_make_tensor_ignored_negative`, `C101_make_tensor_out_negative`, `C102_code`, `C102_erfc`, `C102_method_partial`, `C102_operator_partial`, `C10_package_order`, `C11_mask_changes_only_kept_apis`, `C14_input_untouched`, `C14_input_untouched_below`, `C15_requirements`, `C17_exclude_iff`, `C17_trailing_comma`, `C18_bad_arguments`, `C19_inside_negative`, `C20_outcomes`, `C24_shipped_entry`, `C24_shipped_partial`, `C24_unaligned_partial`, `C27_names_resolve_partial`, `C27_other_package_hidden`, `C28_after_local_negative`, `C28_substring_negative`, `C29_after_local_negative`, `C30_if_try_bodies_partial`, `C30_negative`, `C32_no_torch_import`, `C32_other_package`, `C33_whole_components`, `C33_wildcard_negative`, `C34_alias_resolves`, `C34_dataloader_negative`, `C34_entry_found`, `C34_lookup_total_partial`, `C34_visits_never_assert_partial`, `C35_class_attribute`, `C35_class_call`, `C35_package_call`, `C36_removed_negative`, `C37_complete`, `C37_never_lost`, `C37_no_duplicates`, `C38_async_negative`, `C38_decorator_negative`, `C38_handler_negative`, `C39_path`, `C40_argument_count_partial`, `C40_arguments_bound_exactly_partial`, `C40_no_index_error`, `C40_shipped_partial`, `C41_keyword_refused_partial`, `C41_positional_refused`, `C41_skipped_negative`, `C41_starred_refused`, `C42_unknown_keyword_misidentified`, `C42_unknown_keyword_partial`, `C43_nothing_invented`, `C43_renaming_keeps_arguments`, `C43_shipped`, `C44_defaults_lookup`, `C44_defaults_never_override`, `C46_unsupported_crash`, `C47_int32`, `C47_prefix_replaced_partial`, `C47_shipped_partial`, `C48_call_keywords`, `C48_given`, `C48_statements`, `C48_value`, `C49_legacy_reduction`, `C51_generic_negative`, `C51_generic_targets_partial`, `C51_plain_entries`, `C53_code_number`, `C53_idempotent`, `C53_maps`, `C55_imported_partial`, `C56_nested_negative`, `C57_uses_replaced_partial`, `C58_other_statements`, `C59_agrees`, `C59_min_mode_keeps`, `C60_negative`, `C64_fixed_name_partial`, `C64_functions_partial`, `C64_program_partial`, `C64_straight_partial`, `C64_while_test_negative`, `C65_attributes_reported`, `C66_left_unchanged_package_partial`, `C66_left_unchanged_partial`, `C66_no_delete_shipped`, `C66_only_none_lost`, `C66_only_none_lost_package`, `C67_other_names_partial`, `C67_self_negative`, `C68_negative`, `C70_layers`, `C70_log_softmax_partial`, `C70_negative`, `C70_softmin_partial`, `C71_axes_partial`, `C71_first_axis`, `C71_last_negative`, `C71_negative`, `C72_narrow_copy`, `C75_covered`, `C75_lost_negative`, `C75_weights_negative`, `C76_receiver_negative`, `C76_repeated_negative`, `C77_failing_negative`, `C78_plain_code_parses_partial`, `C80_literal_needed_partial`, `C80_text_negative`, `C85_fits`, `C85_reach`, `C86_os_partial`, `C86_rename_negative`, `C87_backward_negative`, `C87_nameless_negative`, `C87_value_partial`, `C88_call_negative`, `C88_target_partial`, `C89_decode_jpeg_negative`, `C89_index_copy_negative`, `C90_dir_negative`, `C90_single_negative`, `C90_user_negative`, `C91_generated_negative`, `C91_index_copy_negative`, `C91_scratch_negative`, `C93_svd_negative`, `C94_aligned_negative`, `C94_numbers`, `C95_longer_negative`, `C95_parameters_negative`, `C95_rotary_partial`, `C95_single_negative`, `C96_default_call`, `C96_group_negative`, `C96_wait_negative`, `C97_search_partial`, `C99_key_negative`, `C99_older_negative`.

`Classical.choice`, `Quot.sound`, `propext`:
`C01_names_never_repeat`, `C03_helpers_once_partial`, `C05_insertion_point_partial`, `C07_marking_keeps_code`, `C08_marks_have_a_cause`, `C08_min_imports_exempt`, `C09_leftover_uses_marked_partial`, `C09_marks_exactly`, `C100_apart_partial`, `C100_helpers_negative`, `C100_last`, `C100_negative`, `C101_chain_matmul_partial`, `C101_checkpoint_partial`, `C101_hub_load_negative`, `C101_hub_load_partial`, `C101_make_tensor_bounds_negative`, `C101_make_tensor_partial`, `C101_stft_partial`, `C101_stft_positional_negative`, `C11_mask_keeps_layout`, `C11_only_kept_apis_change`, `C12_no_torch_unmarked`, `C13_output_mirrors_input`, `C13_single_file`, `C16_other_files_copied`, `C17_excluded_subtree`, `C19_file_negative`, `C19_negative`, `C19_run_ends_partial`, `C20_counts_balance`, `C20_success_deserved`, `C21_rate`, `C22_order_partial`, `C22_sum_over_files_partial`, `C23_table_adds_up_partial`, `C23_table_bound`, `C25_reports`, `C26_empty`, `C26_second_listing`, `C26_statistics`, `C27_last_import_wins`, `C27_other_names_partial`, `C28_other_imports_survive_partial`, `C29_default_mode_partial`, `C29_min_mode_partial`, `C31_added_imports`, `C34_disabled`, `C36_insert`, `C36_insert_prefix`, `C36_pass_partial`, `C36_pass_whole`, `C37_again`, `C38_position_partial`, `C40_arguments_bound_partial`, `C43_accepted_calls_partial`, `C45_args_emitted`, `C45_arguments_emitted`, `C45_kwargs_emitted`, `C46_plain_call_keeps_arguments_partial`, `C46_shipped_partial`, `C48_unbalanced_negative`, `C51_tables_coherent`, `C52_adjoint`, `C52_dim2perm`, `C52_fails_iff`, `C52_shape`, `C54_randint`, `C55_loaded_iff`, `C55_loaded_partial`, `C56_accepted`, `C56_refused_partial`, `C60_first_stays_partial`, `C62_min_marks`, `C62_other_uses_visible`, `C62_uses_in_min_mode`, `C63_hidden_negative`, `C63_import_style_partial`, `C63_same_matcher_partial`, `C64_generated_partial`, `C65_calls_reported`, `C68_split_partial`, `C71_index_copy_partial`, `C73_same_calls_partial`, `C74_no_extensions`, `C74_unrelated_partial`, `C74_used_partial`, `C75_arguments_kept_partial`, `C75_receiver_kept_partial`, `C75_text_kept_partial`, `C75_user_call_partial`, `C76_arguments_once_partial`, `C76_receiver_once_partial`, `C77_no_error_partial`, `C78_code_parses_negative`, `C78_code_parses_partial`, `C78_index_copy_negative`, `C79_reduction_partial`, `C80_spelling_partial`, `C81_literal_flag_partial`, `C81_no_flag`, `C81_qr_negative`, `C81_rnn_negative`, `C81_variable_flag_partial`, `C82_negated_flag`, `C82_no_flag`, `C82_requires_grad_negative`, `C82_requires_grad_partial`, `C82_solve_triangular_negative`, `C82_svd_negative`, `C82_svd_partial`, `C83_dotted_negative`, `C83_left_alone_partial`, `C83_methods_negative`, `C83_option`, `C83_others_partial`, `C84_mapped_negative`, `C84_order_negative`, `C84_second_run_partial`, `C85_capture_negative`, `C85_meaning_partial`, `C89_names_partial`, `C90_code_names_partial`, `C90_dir_partial`, `C90_single`, `C90_user_single_partial`, `C91_assigned`, `C91_hygiene_partial`, `C91_variable_partial`, `C92_add_product_negative`, `C92_add_product_partial`, `C92_addcdiv`, `C92_addcmul`, `C92_erfc`, `C92_erfc_negative`, `C92_erfcx_partial`, `C92_exp2`, `C92_expit_negative`, `C92_expit_partial`, `C92_logaddexp2_negative`, `C92_logaddexp2_partial`, `C92_ndtr`, `C92_ndtri`, `C92_underflow_negative`, `C92_xlog1py_partial`, `C92_xlogy_negative`, `C92_xlogy_partial`, `C93_lu_solve_batch_negative`, `C93_lu_solve_call`, `C93_lu_solve_left`, `C93_lu_solve_left_batch`, `C93_lu_solve_right_partial`, `C93_positive_definite_inv_partial`, `C93_positive_definite_negative`, `C93_positive_definite_partial`, `C93_svd_partial`, `C94_row_count`, `C94_tensor_partial`, `C96_world_partial`, `C97_dir_partial`, `C97_own_negative`, `C97_path_partial`, `C97_single`, `C98_covered`, `C98_given`, `C98_negative`, `C98_omitted_partial`, `C98_printoptions_negative`, `C99_constant_code`, `C99_constant_zero_negative`, `C99_learning_rate_code`, `C99_linear`, `C99_one_cycle_code`, `C99_one_cycle_negative`, `C99_trace_partial`, `C99_two_negative`.
