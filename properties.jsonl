{"id": "C01", "title": "Generated temporary names never repeat", "statement": "Over the life of the process no two calls that ask for a generated name (for any keys, equal or different, and even if a key itself ends in a number) return the same string.", "quantifier": "every finite sequence of requests over arbitrary key strings", "why_tests_cant": "a test can only try a handful of keys and counts; a clash such as key 'a_1' with counter 0 against key 'a' needs reasoning over all keys", "anchors": ["paconvert/utils.py:UniqueNameGenerator.__call__", "paconvert/utils.py:get_unique_name"]}
{"id": "C02", "title": "Generated names count up per key", "statement": "The n-th request for a key returns key_<n-1> in decimal, whatever requests for other keys are interleaved.", "quantifier": "every request history and every key", "why_tests_cant": "interleavings are unbounded", "anchors": ["paconvert/utils.py:UniqueNameGenerator.__call__"]}
{"id": "C03", "title": "Every requested helper is emitted once", "statement": "After any sequence of helper-code requests, the helper block lists each distinct requested helper (with trailing newlines removed) exactly once, in order of first request, and nothing else.", "quantifier": "every sequence of helper-code strings and every collision-free hash", "why_tests_cant": "the number and order of helpers is unbounded and depends on the hash of the text", "anchors": ["paconvert/utils.py:UtilsFileHelper.add_code", "paconvert/utils.py:UtilsFileHelper._get_code_hash"]}
{"id": "C04", "title": "Helper block insertion keeps the user's file", "statement": "In single-file mode, writing the helper block leaves every line of the converted file in its order and inserts one contiguous block; removing the block gives back the lines.", "quantifier": "every file content and every set of helpers", "why_tests_cant": "file contents are unbounded", "anchors": ["paconvert/utils.py:UtilsFileHelper.write_code"]}
{"id": "C05", "title": "Helper block never splits an import", "statement": "The insertion point is between two complete lines of the leading import block: everything before it is blank lines, comments or import statements, and it is never inside a backslash-continued or parenthesised import.", "quantifier": "every list of source lines", "why_tests_cant": "the scanner has nested loops over arbitrary continuation shapes", "anchors": ["paconvert/utils.py:UtilsFileHelper._find_import_insert_idx"]}
{"id": "C06", "title": "Helper file belongs to the run that requested it", "statement": "Each conversion run writes its helpers to that run's own output.", "quantifier": "every sequence of runs in one process", "why_tests_cant": "needs multi-run histories; the single-run tests reset nothing between runs", "anchors": ["paconvert/utils.py:UtilsFileHelper.__new__", "paconvert/utils.py:UtilsFileHelper.__init__", "paconvert/converter.py:Converter.run"]}
{"id": "C07", "title": "Marking keeps the code", "statement": "Marking unsupported lines returns the same number of lines, each either identical to the input line or the input line prefixed by exactly one '>>>>>>'; deleting those prefixes gives back the input text.", "quantifier": "every code text, every set of imported packages, both modes", "why_tests_cant": "text is unbounded; a slip shows only for particular quote/bracket layouts", "anchors": ["paconvert/converter.py:Converter.mark_unsupport"]}
{"id": "C08", "title": "Marks have a cause", "statement": "A line gets '>>>>>>' only if the closest preceding note line 'Not Support auto convert' marks it, or the line, after quoted text is removed and outside any triple-quoted block, contains an imported torch package name followed by '.' at line start or after a character that is neither a word character nor '.'.", "quantifier": "every code text and package set", "why_tests_cant": "absence of spurious marks is a universal statement over texts", "anchors": ["paconvert/converter.py:Converter.mark_unsupport"]}
{"id": "C09", "title": "Leftover torch uses are marked", "statement": "In default mode every line which has no quotes, is not inside a triple-quoted block, and contains an imported torch package followed by '.' at line start or after a non-word non-dot character is marked, except when it is a note line.", "quantifier": "every code text and package set", "why_tests_cant": "completeness over all lines", "anchors": ["paconvert/converter.py:Converter.mark_unsupport"]}
{"id": "C10", "title": "Marking does not depend on package order", "statement": "The marked text is the same for every iteration order of the set of imported torch packages.", "quantifier": "every permutation of every package set and every text", "why_tests_cant": "set iteration order varies with hash seeds, so a test sees one order per process", "anchors": ["paconvert/converter.py:Converter.mark_unsupport"]}
{"id": "C11", "title": "Masking keeps the layout", "statement": "In min mode the scanned text has the same length and the same newline positions as the code for any set of kept APIs, so line i of the scan is line i of the code, and only characters of whole kept-API occurrences change, each to '_' .", "quantifier": "every text and every set of kept API names", "why_tests_cant": "texts and API sets are unbounded; the index scan_lines[i] would crash on any layout change", "anchors": ["paconvert/converter.py:Converter.mask_change_prefix_apis", "paconvert/converter.py:Converter.mark_unsupport"]}
{"id": "C12", "title": "Files without torch stay unmarked", "statement": "If a file imports no torch package and carries no note line, marking returns it unchanged.", "quantifier": "every text", "why_tests_cant": "universal over texts", "anchors": ["paconvert/converter.py:Converter.mark_unsupport"]}
{"id": "C13", "title": "The output tree mirrors the input tree", "statement": "After a run on a directory, the output tree contains, besides what it had before, exactly the converted image of each non-hidden, non-excluded file at the same relative path, and a directory for each non-hidden, non-excluded directory.", "quantifier": "every finite directory tree, every exclude predicate", "why_tests_cant": "tree shapes are unbounded", "anchors": ["paconvert/converter.py:Converter.transfer_dir", "paconvert/converter.py:listdir_nohidden"]}
{"id": "C14", "title": "Conversion does not touch the input", "statement": "When the output path is outside the input tree (and the input is not inside the output directory with the same name), no file of the input tree is created, changed or removed.", "quantifier": "every tree, every pair of paths", "why_tests_cant": "path relations are unbounded and the dangerous ones (parent, child, same directory) are rarely tested", "anchors": ["paconvert/converter.py:Converter.run", "paconvert/converter.py:Converter.transfer_dir", "paconvert/converter.py:Converter.transfer_file"]}
{"id": "C15", "title": "requirements.txt is rewritten totally", "statement": "The output of a requirements.txt is the input with every non-overlapping occurrence of 'torch', left to right, replaced by 'paddlepaddle-gpu'; it contains no 'torch' and text without 'torch' is unchanged.", "quantifier": "every file content", "why_tests_cant": "contents are unbounded; re-created occurrences after replacement must be excluded for all texts", "anchors": ["paconvert/converter.py:Converter.transfer_file"]}
{"id": "C16", "title": "Other files are copied verbatim", "statement": "A file whose name ends neither in .py nor in requirements.txt is reproduced byte for byte.", "quantifier": "every name and content", "why_tests_cant": "universal", "anchors": ["paconvert/converter.py:Converter.transfer_file"]}
{"id": "C17", "title": "Exclude patterns mean what they say", "statement": "A path is skipped iff some comma-separated pattern of the option, or __pycache__, is found in its absolute path; an excluded directory hides its whole subtree.", "quantifier": "every exclude string, tree and regular-expression search behaviour", "why_tests_cant": "pattern lists are unbounded; an empty item silently excludes everything", "anchors": ["paconvert/converter.py:Converter.run", "paconvert/converter.py:Converter.transfer_dir"]}
{"id": "C18", "title": "Bad arguments fail before any file is written", "statement": "An output path equal to the input path, or a missing input path, aborts the run without changing a file of the input.", "quantifier": "every pair of paths", "why_tests_cant": "all path pairs", "anchors": ["paconvert/converter.py:Converter.run", "paconvert/converter.py:Converter.transfer_dir"]}
{"id": "C19", "title": "A run ends", "statement": "Conversion of a finite input tree ends, wherever the output path lies.", "quantifier": "every finite tree and output path", "why_tests_cant": "non-termination cannot be observed by a finite test", "anchors": ["paconvert/converter.py:Converter.transfer_dir"]}
{"id": "C20", "title": "Counts balance", "statement": "For any sequence of recognised API uses: the number of APIs reported in the project equals successes plus the total of the unsupported-API table; success and failure counts are never negative and failure = total - success.", "quantifier": "every sequence of conversion events over any number of files and transformers", "why_tests_cant": "histories are unbounded and every one of about twenty return paths must keep the balance", "anchors": ["paconvert/transformer/basic_transformer.py:BasicTransformer.visit_Attribute", "paconvert/transformer/basic_transformer.py:BasicTransformer.trans_class_attribute", "paconvert/transformer/basic_transformer.py:BasicTransformer.visit_Call", "paconvert/transformer/basic_transformer.py:BasicTransformer.trans_class_method", "paconvert/transformer/custom_op_transformer.py:PreCustomOpTransformer.visit_Attribute", "paconvert/transformer/custom_op_transformer.py:CustomOpTransformer.visit_Attribute", "paconvert/converter.py:Converter.transfer_node", "paconvert/converter.py:Converter.run"]}
{"id": "C21", "title": "The convert rate is a rate", "statement": "The reported convert rate lies between 0 and 1, is computed without division by zero, and (when some API was found) is 1 exactly when nothing is unsupported.", "quantifier": "every history", "why_tests_cant": "all counts", "anchors": ["paconvert/converter.py:Converter.run"]}
{"id": "C22", "title": "Totals do not depend on file order", "statement": "The returned (success, failed) pair is the sum over files of the per-file counts, so it does not depend on the directory listing order.", "quantifier": "every permutation of the files of a project", "why_tests_cant": "os.listdir order is arbitrary", "anchors": ["paconvert/converter.py:Converter.transfer_dir", "paconvert/converter.py:Converter.transfer_node"]}
{"id": "C23", "title": "The per-API table adds up", "statement": "The counts listed per API add up to the number of APIs found.", "quantifier": "every history", "why_tests_cant": "needs histories mixing misidentified and real uses of one API", "anchors": ["paconvert/transformer/basic_transformer.py:BasicTransformer.visit_Call", "paconvert/converter.py:Converter.run"]}
{"id": "C24", "title": "The unaligned-API report never crashes", "statement": "The unaligned report lists exactly the found APIs that start with 'torch.' and are not prefix-only APIs.", "quantifier": "every set of found APIs", "why_tests_cant": "all subsets of the table", "anchors": ["paconvert/converter.py:Converter.run"]}
{"id": "C25", "title": "Reports are complete and sorted", "statement": "The API reports list each API once, most used first, and drop none.", "quantifier": "every table of counts", "why_tests_cant": "all tables", "anchors": ["paconvert/converter.py:Converter.run"]}
{"id": "C26", "title": "Project statistics are consistent", "statement": "In separate conversion, #100% <= #>=95% <= #>=90% <= number of projects, and the percentages are defined whenever there is a project.", "quantifier": "every list of projects and rates", "why_tests_cant": "all lists", "anchors": ["paconvert/main.py:main"]}
{"id": "C27", "title": "Names resolve through imports", "statement": "A dotted use a.b.c resolves to the imported full name iff its first component was bound by a torch import, with the first component replaced by the module bound and the rest unchanged; the last import of a name wins.", "quantifier": "every sequence of import statements and every dotted name", "why_tests_cant": "all import histories", "anchors": ["paconvert/base.py:BaseTransformer.get_torch_api_from_node", "paconvert/base.py:BaseTransformer.replace_torch_module", "paconvert/base.py:BaseTransformer.get_full_attr", "paconvert/transformer/import_transformer.py:ImportTransformer.visit_Import", "paconvert/transformer/import_transformer.py:ImportTransformer.visit_ImportFrom"]}
{"id": "C28", "title": "Imports of other packages survive", "statement": "Every imported name that is not from a torch package is still imported, with the same binding, after the import pass.", "quantifier": "every import statement and file-system layout", "why_tests_cant": "alias lists are unbounded; the failing case needs a project-local module listed before others", "anchors": ["paconvert/transformer/import_transformer.py:ImportTransformer.visit_Import", "paconvert/transformer/import_transformer.py:ImportTransformer.visit_ImportFrom"]}
{"id": "C29", "title": "Torch imports are removed in default mode and kept in min mode", "statement": "After the import pass in default mode no import of a torch package remains (unless a project-local module shadows it) and each bound name is recorded; in min mode the statements remain and are recorded too.", "quantifier": "every import statement", "why_tests_cant": "all alias lists", "anchors": ["paconvert/transformer/import_transformer.py:ImportTransformer.visit_Import", "paconvert/transformer/import_transformer.py:ImportTransformer.visit_ImportFrom"]}
{"id": "C30", "title": "Removing imports leaves no empty block", "statement": "A block that had statements still has at least one statement after the import pass.", "quantifier": "every program", "why_tests_cant": "all nesting shapes of blocks", "anchors": ["paconvert/transformer/import_transformer.py:ImportTransformer.visit_Import", "paconvert/transformer/import_transformer.py:ImportTransformer.visit_ImportFrom"]}
{"id": "C31", "title": "Each needed paddle package is imported once", "statement": "After the import pass the module starts with one import for each paddle package that corresponds to an imported torch package (and each may-torch package), without repeats, whatever the set iteration order.", "quantifier": "every set of packages, every order", "why_tests_cant": "set order varies with hash seeds", "anchors": ["paconvert/transformer/import_transformer.py:ImportTransformer.visit_Module", "paconvert/base.py:BaseTransformer.record_scope", "paconvert/base.py:BaseTransformer.insert_scope"]}
{"id": "C32", "title": "Without a torch import no method call is converted", "statement": "If a file imports no torch package, no attribute or method use is treated as a torch class API.", "quantifier": "every expression and every file", "why_tests_cant": "all expressions", "anchors": ["paconvert/base.py:BaseTransformer.get_full_attr_strict", "paconvert/transformer/basic_transformer.py:BasicTransformer.visit_Call", "paconvert/transformer/basic_transformer.py:BasicTransformer.visit_Attribute"]}
{"id": "C33", "title": "Package prefixes match whole components", "statement": "A name counts as a torch-package API iff its first dotted components are an imported torch package: 'torchx.f' is not a torch API because of 'torch'.", "quantifier": "every name and package set", "why_tests_cant": "all names", "anchors": ["paconvert/transformer/basic_transformer.py:BasicTransformer.start_with_torch"]}
{"id": "C34", "title": "Name lookup in the API tables is deterministic and total", "statement": "Looking up the matcher of any API name never fails an internal assertion, aliases resolve to their canonical entry, and disabled entries give no matcher.", "quantifier": "every API name (string) against the shipped tables", "why_tests_cant": "the tables have two thousand entries and names are unbounded", "anchors": ["paconvert/transformer/basic_transformer.py:BasicTransformer.get_api_matcher", "paconvert/transformer/basic_transformer.py:BasicTransformer.get_attribute_matcher", "paconvert/base.py:BaseTransformer.get_canonical_torch_api", "paconvert/api_alias_mapping.json", "paconvert/api_mapping.json"]}
{"id": "C35", "title": "Class API candidates are tried in a fixed order", "statement": "A method call is attributed to the first of Tensor, Module, Optimizer, FunctionCtx, Distribution for which the call shape is admissible and the method is in the API table, and to none otherwise.", "quantifier": "every receiver shape, every method name, every table", "why_tests_cant": "all names and tables", "anchors": ["paconvert/transformer/basic_transformer.py:BasicTransformer.visit_Call", "paconvert/transformer/basic_transformer.py:BasicTransformer.visit_Attribute"]}
{"id": "C36", "title": "Inserted lines keep the program order", "statement": "Inserting recorded helper lines keeps all original statements in order and puts the lines recorded for statement i directly before it, in the order in which they were recorded.", "quantifier": "every block, every recording history", "why_tests_cant": "all index sets and histories", "anchors": ["paconvert/base.py:BaseTransformer.insert_scope", "paconvert/base.py:BaseTransformer.record_scope"]}
{"id": "C37", "title": "Recorded lines are not duplicated", "statement": "Recording a line that is already recorded for the same position adds nothing; recorded lines are never lost.", "quantifier": "every recording history", "why_tests_cant": "all histories", "anchors": ["paconvert/base.py:BaseTransformer.record_scope"]}
{"id": "C38", "title": "Helper lines land in the block of the use", "statement": "The position found for helper lines is the statement of the innermost recorded block that contains the current node.", "quantifier": "every node path in every program", "why_tests_cant": "all nesting shapes; the search can recurse forever", "anchors": ["paconvert/base.py:BaseTransformer.scope_body_index"]}
{"id": "C39", "title": "Traversal bookkeeping is balanced", "statement": "After visiting any subtree the node stack and scope stack are what they were before, and during a visit the parent is the syntactic parent.", "quantifier": "every syntax tree", "why_tests_cant": "all trees", "anchors": ["paconvert/base.py:BaseTransformer.visit", "paconvert/base.py:BaseTransformer.parent_node", "paconvert/base.py:BaseTransformer.visit_FunctionDef"]}
{"id": "C40", "title": "Arguments are bound to the right parameters", "statement": "If argument parsing succeeds, every positional argument is bound to the parameter at its position and every keyword argument to its name, nothing else is bound, and no index is out of range.", "quantifier": "every argument list and every table entry", "why_tests_cant": "argument lists are unbounded", "anchors": ["paconvert/base.py:BaseMatcher.parse_args_and_kwargs"]}
{"id": "C41", "title": "Unsupported arguments are refused", "statement": "A call that passes an argument listed as unsupported (other than the literal None), a starred argument or **kwargs is never converted by position/keyword matchers.", "quantifier": "every call", "why_tests_cant": "needs particular orders of keywords: the checking loop removes items from the list it iterates over", "anchors": ["paconvert/base.py:BaseMatcher.parse_args_and_kwargs"]}
{"id": "C42", "title": "Unknown keywords are refused", "statement": "A call with a keyword that the API does not have is classified as not this API.", "quantifier": "every call", "why_tests_cant": "same loop as above", "anchors": ["paconvert/base.py:BaseMatcher.parse_args_and_kwargs"]}
{"id": "C43", "title": "Renaming keeps arguments", "statement": "Keyword renaming sends each argument's text to the new name(s) and drops only those mapped to the empty name or listed as unused; nothing else appears.", "quantifier": "every keyword dictionary and rename table without colliding targets", "why_tests_cant": "all dictionaries", "anchors": ["paconvert/base.py:BaseMatcher.change_kwargs"]}
{"id": "C44", "title": "Paddle defaults never override the user", "statement": "Filling Paddle default arguments keeps every user value and adds exactly the missing defaults.", "quantifier": "every dictionary and default table", "why_tests_cant": "all dictionaries", "anchors": ["paconvert/base.py:BaseMatcher.set_paddle_default_kwargs"]}
{"id": "C45", "title": "Argument text is emitted faithfully", "statement": "The emitted argument list has all positional arguments in order, then all keyword arguments in order, separated by ', '; nothing is lost or invented.", "quantifier": "every argument list", "why_tests_cant": "all lists", "anchors": ["paconvert/base.py:BaseMatcher.args_and_kwargs_to_str", "paconvert/base.py:BaseMatcher.kwargs_to_str", "paconvert/base.py:BaseMatcher.args_to_str"]}
{"id": "C46", "title": "Prefix-only APIs keep their arguments", "statement": "For prefix-only and rename-only APIs the converted call has the same arguments as the source call except the documented dropped ones, including starred and ** arguments.", "quantifier": "every call", "why_tests_cant": "all argument lists; two ** arguments in one call are rarely tested", "anchors": ["paconvert/api_matcher.py:ChangePrefixMatcher.get_paddle_nodes", "paconvert/api_matcher.py:ChangeAPIMatcher.get_paddle_nodes", "paconvert/base.py:BaseMatcher.parse_kwargs"]}
{"id": "C47", "title": "Prefix-only APIs change only the prefix", "statement": "The converted name is the torch name with its first component replaced by the paddle package and all other components unchanged.", "quantifier": "every API name of a torch package", "why_tests_cant": "all names", "anchors": ["paconvert/api_matcher.py:ChangePrefixMatcher.get_paddle_api"]}
{"id": "C48", "title": "Generic conversion keeps dtype, out and requires_grad", "statement": "The code generated by the generic matcher is one call whose keywords are the renamed user keywords plus defaults, wrapped in astype/pin_memory/assign/stop_gradient exactly when the user passed dtype/pin_memory/out/requires_grad; the negation of requires_grad has the value of Python 'not'.", "quantifier": "every keyword dictionary", "why_tests_cant": "all combinations and argument texts", "anchors": ["paconvert/api_matcher.py:GenericMatcher.generate_code"]}
{"id": "C49", "title": "Legacy reduction arguments follow PyTorch", "statement": "size_average/reduce are translated to the reduction that PyTorch's legacy table gives, and do not touch calls that pass neither.", "quantifier": "every combination of texts", "why_tests_cant": "all texts, defaults and orders", "anchors": ["paconvert/api_matcher.py:process_reduce_and_size_average"]}
{"id": "C50", "title": "The receiver of a method is kept", "statement": "Converting a method call x.f(...) keeps the source text of x, whatever expression x is.", "quantifier": "every receiver text", "why_tests_cant": "texts with regex or backslash characters", "anchors": ["paconvert/base.py:BaseMatcher.parse_func"]}
{"id": "C51", "title": "The mapping tables are coherent", "statement": "Every alias resolves to a name that is not an alias; no name is in both the call and the attribute table; rename-only entries have a target and no argument changes; every named matcher class exists; argument lists have at most one keyword-only marker.", "quantifier": "every entry of the shipped JSON tables", "why_tests_cant": "the tables are checked lazily, only for names that occur in a test", "anchors": ["paconvert/api_mapping.json", "paconvert/attribute_mapping.json", "paconvert/api_alias_mapping.json", "paconvert/api_matcher.py"]}
{"id": "C52", "title": "Helper dim2perm is a transposition", "statement": "The emitted helper computing a permutation from two axes swaps exactly these two axes, for negative axes too.", "quantifier": "every rank and every pair of valid axes", "why_tests_cant": "all ranks", "anchors": ["paconvert/api_matcher.py:TransposeMatcher.generate_utils_code"]}
{"id": "C53", "title": "Helper device2str normalises devices", "statement": "The emitted device helper maps cuda device descriptions to gpu ones and cpu ones to 'cpu', and is idempotent on its own results.", "quantifier": "every device description", "why_tests_cant": "all strings and indices", "anchors": ["paconvert/api_matcher.py:Device2StrBaseMatcher.generate_utils_code"]}
{"id": "C54", "title": "torch.randint overloads are told apart", "statement": "For any mixture of positional and keyword low/high/size the generated call has the same bounds and shape as PyTorch's signature gives.", "quantifier": "every argument list accepted by PyTorch", "why_tests_cant": "all argument mixtures", "anchors": ["paconvert/api_matcher.py:RandintMatcher"]}
{"id": "C55", "title": "Custom-op module names survive", "statement": "The name of a just-in-time loaded C++ extension is recovered exactly in the rewritten import.", "quantifier": "every module name", "why_tests_cant": "all names; prefix stripping by character set fails for some", "anchors": ["paconvert/transformer/custom_op_transformer.py:CustomOpTransformer.visit_ImportFrom", "paconvert/transformer/custom_op_transformer.py:CustomOpTransformer.visit_Attribute"]}
{"id": "C56", "title": "Helper lines stay inside a comprehension", "statement": "A conversion that needs helper lines is refused for a use inside a comprehension, because the lines would be executed outside of it, where its variables are not bound; outside of comprehensions every helper line is recorded.", "quantifier": "every use, every list of generated lines", "why_tests_cant": "all nestings; tests use a handful of shapes", "anchors": ["paconvert/base.py:BaseTransformer.insert_multi_node"]}
{"id": "C57", "title": "Uses of removed imports are rewritten", "statement": "After the import pass every use of a name imported from a torch package, alone or as the head of a dotted name, at any place of an expression, stands under the canonical full name of the API (or unchanged if the API is kept in min mode), and nothing else changes.", "quantifier": "every expression, every table of imported names", "why_tests_cant": "all expression shapes and positions; tests use the shapes the visitors list", "anchors": ["paconvert/transformer/import_transformer.py:ImportTransformer.visit_Attribute", "paconvert/transformer/import_transformer.py:ImportTransformer.visit_Name"]}
{"id": "C58", "title": "The import pass leaves the other statements alone", "statement": "Up to import statements and pass, the program after the import pass is the program before it: same statements, same nesting, same order.", "quantifier": "every program, both modes, every import table", "why_tests_cant": "universal over programs", "anchors": ["paconvert/transformer/import_transformer.py:ImportTransformer.visit_Import", "paconvert/transformer/import_transformer.py:ImportTransformer.visit_ImportFrom", "paconvert/base.py:BaseTransformer.generic_visit"]}
{"id": "C59", "title": "Min mode keeps exactly the prefix-only APIs", "statement": "In min mode an API keeps its torch name iff its canonical name has an enabled prefix-only entry, which is the case iff the later passes would convert it by changing the prefix alone.", "quantifier": "every API name, the shipped tables", "why_tests_cant": "the name is arbitrary: aliases, wildcards and disabled entries interact", "anchors": ["paconvert/base.py:BaseTransformer.in_min_mode", "paconvert/transformer/basic_transformer.py:BasicTransformer.get_api_matcher", "paconvert/transformer/basic_transformer.py:BasicTransformer.get_attribute_matcher"]}
{"id": "C60", "title": "What has to come first stays first", "statement": "A module docstring stays the first statement and a future import stays before all other statements but the docstring.", "quantifier": "every program", "why_tests_cant": "universal over programs", "anchors": ["paconvert/transformer/import_transformer.py:ImportTransformer.visit_Module", "paconvert/base.py:BaseTransformer.insert_scope"]}
{"id": "C61", "title": "The helper block holds the helpers and nothing else", "statement": "The lines written for helper code are: a start comment, every requested helper with all its lines in request order, an end comment; in the helper file of directory mode an import of paddle comes first, so the helpers can use it.", "quantifier": "every list of helper texts", "why_tests_cant": "helper texts are arbitrary; tests look for a substring of the output", "anchors": ["paconvert/utils.py:UtilsFileHelper.insert_code"]}
{"id": "C62", "title": "Min mode reports exactly the uses it does not keep", "statement": "In min mode the uses of torch packages found by the search for leftovers are exactly those that are not part of a whole occurrence of a kept API, wherever white space or line breaks stand around the dots and however the kept APIs overlap as prefixes; so a line is marked for a leftover iff it has such a use.", "quantifier": "every text, every set of kept APIs, every line", "why_tests_cant": "the kept APIs are masked one after the other in the text; interactions need particular prefixes and spacing", "anchors": ["paconvert/converter.py:Converter.mask_change_prefix_apis", "paconvert/converter.py:Converter.mark_unsupport"]}
{"id": "C63", "title": "It does not matter how an API is imported", "statement": "A call of an API gets to the matcher of this API, and a call of a prefix-only API is converted to the same call of the Paddle API, with the same arguments, whatever import statement gives access to the API (import, import as, from import, from import as, of the package, a module of it or the API itself), under whatever local name, before or after the use, and whether it is named directly or by an alias of the table.", "quantifier": "every program of imports, every use, every entry, every argument list", "why_tests_cant": "the ways to import, rename and nest are unbounded and interact with the imports of other packages", "anchors": ["paconvert/transformer/import_transformer.py:ImportTransformer.visit_Import", "paconvert/transformer/import_transformer.py:ImportTransformer.visit_ImportFrom", "paconvert/transformer/import_transformer.py:ImportTransformer.visit_Attribute", "paconvert/base.py:BaseTransformer.get_full_attr_strict", "paconvert/base.py:BaseTransformer.replace_torch_module", "paconvert/transformer/basic_transformer.py:BasicTransformer.visit_Call", "paconvert/api_matcher.py:ChangePrefixMatcher"]}
{"id": "C64", "title": "Helper lines run when the use runs", "statement": "When a conversion replaces a call by helper lines and an expression, the converted program still does what the program with the call did: it raises exactly where it raised, loops as often, and leaves the variables of the program with the same values.", "quantifier": "every program, every place of the call, every number of calls", "why_tests_cant": "the lines are moved out of the expression to the statement before it; whether that is seen depends on control flow and on other calls in the statement", "anchors": ["paconvert/base.py:BaseTransformer.insert_multi_node", "paconvert/base.py:BaseTransformer.record_scope", "paconvert/base.py:BaseTransformer.scope_body_index", "paconvert/api_matcher.py:AdjointMatcher.generate_code", "paconvert/api_matcher.py:LRSchedulerMatcher.generate_code"]}
{"id": "C65", "title": "Unsupported uses are listed under their name", "statement": "A use that is not supported adds one to the entry of its own name in the table of unsupported APIs and changes no other entry: the full API name for an API of a package, *.m for a call of a method m, class and attribute name for an attribute of a class.", "quantifier": "every use, every table, every answer of the matchers", "why_tests_cant": "universal over uses and tables", "anchors": ["paconvert/transformer/basic_transformer.py:BasicTransformer.visit_Call", "paconvert/transformer/basic_transformer.py:BasicTransformer.trans_class_method", "paconvert/transformer/basic_transformer.py:BasicTransformer.visit_Attribute", "paconvert/transformer/basic_transformer.py:BasicTransformer.trans_class_attribute"]}
{"id": "C66", "title": "What is not converted is not changed", "statement": "A call that the tool leaves in the program, silently or with a report, has the arguments it had before; a call disappears only if it is a statement of its own, and stays without a report only if its matcher says that it is no use of the API or that nothing has to change.", "quantifier": "every call, every API entry, every code generator", "why_tests_cant": "universal over calls and entries; needs the effect on the syntax tree of calls that are given up half way", "anchors": ["paconvert/base.py:BaseMatcher.parse_args_and_kwargs", "paconvert/base.py:BaseMatcher.get_paddle_nodes", "paconvert/transformer/basic_transformer.py:BasicTransformer.visit_Call", "paconvert/transformer/basic_transformer.py:BasicTransformer.trans_class_method"]}
{"id": "C67", "title": "The name of a variable does not matter", "statement": "A method call is converted in the same way whatever variable is its first argument.", "quantifier": "every method call, every matcher", "why_tests_cant": "universal over names and argument lists", "anchors": ["paconvert/transformer/basic_transformer.py:BasicTransformer.trans_class_method", "paconvert/base.py:BaseMatcher.parse_args_and_kwargs"]}
{"id": "C68", "title": "Splitting a tensor gives the parts of PyTorch", "statement": "For a part size at least 1, the code written for Tensor.split gives the parts that torch.split gives.", "quantifier": "every tensor, every part size", "why_tests_cant": "all sizes; a test that uses a divisor of the size cannot see it", "anchors": ["paconvert/api_matcher.py:TensorSplitMatcher.generate_utils_code"]}
{"id": "C69", "title": "The cast table is that of PyTorch", "statement": "The helper written for torch.can_cast answers for every pair of types, and allows exactly the casts that do not go to a lower category (bool, integer, floating point, complex).", "quantifier": "every pair of types", "why_tests_cant": "144 entries, written by hand", "anchors": ["paconvert/api_matcher.py:CanCastMatcher.generate_utils_code"]}
{"id": "C70", "title": "Softmax without an axis uses the axis of PyTorch", "statement": "Softmin, LogSoftmax and softmin without dim work along the axis that PyTorch takes for the number of axes of the tensor.", "quantifier": "every number of axes", "why_tests_cant": "the axis depends on the tensor at run time; tests use one or two shapes", "anchors": ["paconvert/api_matcher.py:FSoftMinMatcher.generate_utils_code", "paconvert/api_matcher.py:FSoftMinMatcher.generate_code", "paconvert/api_matcher.py:LogSoftmaxMatcher.generate_utils_code", "paconvert/api_matcher.py:SoftminMatcher.generate_utils_code", "paconvert/api_mapping.json"]}
{"id": "C71", "title": "index_copy copies the slices that PyTorch copies", "statement": "The code written for torch.index_copy computes index_copy along the given axis, whatever the variables are called, and does not change the tensor passed in.", "quantifier": "every tensor, axis, index list without repeats, and every text of the arguments", "why_tests_cant": "all shapes and names", "anchors": ["paconvert/api_matcher.py:IndexCopyMatcher"]}
{"id": "C72", "title": "narrow_copy takes the slices that PyTorch takes", "statement": "For all arguments that PyTorch accepts the code written for torch.narrow_copy gives the length slices from start, a negative start counting from the end.", "quantifier": "every tensor, start and length", "why_tests_cant": "all sizes, starts and lengths, including the ends", "anchors": ["paconvert/api_matcher.py:NarrowCopyMatcher.generate_code"]}
{"id": "C73", "title": "Names keep their meaning through the file", "statement": "Whatever a name stands for when a call through it runs (an imported torch API, an API it was assigned, or anything else the program has bound to it, in a function or at the top), the converted program calls the same thing at this point.", "quantifier": "every program, every execution", "why_tests_cant": "needs all binding histories of a name: imports, assignments, parameters, functions, loops", "anchors": ["paconvert/transformer/import_transformer.py:ImportTransformer.visit_Import", "paconvert/transformer/import_transformer.py:ImportTransformer.visit_ImportFrom", "paconvert/transformer/import_transformer.py:ImportTransformer.visit_Name", "paconvert/transformer/import_transformer.py:ImportTransformer.visit_Attribute", "paconvert/base.py:BaseTransformer.replace_torch_module"]}
{"id": "C74", "title": "Classes around C++ extensions are recognised across files", "statement": "A class that wraps a C++ extension of the project is removed and its uses in other files become uses of the extension, in whatever order the files are converted; files and classes that have nothing to do with an extension are not changed.", "quantifier": "every project: any number of files in any order, all names", "why_tests_cant": "state is shared by all files of a run; needs projects of several files in several orders", "anchors": ["paconvert/transformer/custom_op_transformer.py:PreCustomOpTransformer", "paconvert/transformer/custom_op_transformer.py:CustomOpTransformer", "paconvert/api_matcher.py:SetUpMatcher.generate_code", "paconvert/converter.py:Converter.transfer_node"]}
{"id": "C75", "title": "No argument is lost", "statement": "When a matcher replaces a call by code, what the user wrote for an argument, by position or by keyword, is in the code, unless it is None, a boolean or a string that the matcher has read, or the table says that the argument is dropped; so is the receiver of a method.", "quantifier": "every shipped API with a matcher, every valid call of it, every text of the arguments", "why_tests_cant": "every combination of optional arguments with every text; tests give a few of them", "anchors": ["paconvert/api_matcher.py:AddCMulMatcher.generate_code", "paconvert/api_matcher.py:IndexCopyMatcher", "paconvert/api_matcher.py:LinalgInvExMatcher", "paconvert/api_matcher.py:OsEnvironGetMatcher.generate_code", "paconvert/api_matcher.py:FromBufferMatcher.generate_code", "paconvert/api_mapping.json"]}
{"id": "C76", "title": "Every argument is evaluated once", "statement": "The code written for a call contains what the user wrote for an argument, and the receiver, at most once, so that its effects happen once.", "quantifier": "every shipped API with a matcher, every valid call of it, every text of the arguments", "why_tests_cant": "tests pass variables, for which it makes no difference", "anchors": ["paconvert/api_matcher.py:SpecialErfcxMatcher.generate_code", "paconvert/api_matcher.py:AdjointMatcher.generate_code", "paconvert/api_matcher.py:NarrowCopyMatcher.generate_code", "paconvert/api_matcher.py:SelectMatcher.generate_code", "paconvert/api_mapping.json"]}
{"id": "C77", "title": "A valid call does not make a matcher fail", "statement": "A call that gives the arguments PyTorch requires, and no unknown ones, in whatever combination, does not make the matcher raise an exception.", "quantifier": "every shipped API with a matcher, every valid call of it", "why_tests_cant": "all combinations of optional arguments", "anchors": ["paconvert/api_matcher.py:TensorTypeMatcher.generate_code", "paconvert/api_matcher.py:AddMRMatcher.generate_code", "paconvert/api_matcher.py:ADVariableMatcher.generate_code", "paconvert/api_mapping.json"]}
{"id": "C78", "title": "The code of a matcher can be parsed", "statement": "The code that a matcher writes for a call is Python code, and its last line is an expression, so that it can take the place of the call, whatever expressions the arguments are.", "quantifier": "every shipped API with a matcher, every valid call of it, every text of the arguments", "why_tests_cant": "the code is put together from templates and the texts of the arguments; tests parse it for a few texts", "anchors": ["paconvert/base.py:BaseMatcher.get_paddle_nodes", "paconvert/api_matcher.py:GenericMatcher.generate_code", "paconvert/api_matcher.py:SvdMatcher.generate_code", "paconvert/api_matcher.py:IndexCopyMatcher", "paconvert/api_mapping.json"]}
{"id": "C79", "title": "Tensor.max and Tensor.min compute what PyTorch computes", "statement": "A call of Tensor.max or Tensor.min, in any of the forms that PyTorch accepts (no argument, an axis and keepdim, another tensor, by position or by keyword), is converted to code that computes the same: the extremum of all elements, the extrema and their indices along the axis, or the elementwise extremum.", "quantifier": "every call form, every value of the arguments", "why_tests_cant": "which form a call has is decided partly by the text of the call and partly at run time", "anchors": ["paconvert/api_matcher.py:TensorMaxMatcher", "paconvert/api_matcher.py:TensorMinMatcher"]}
{"id": "C80", "title": "How an argument is written does not decide the code", "statement": "Two calls with the same arguments in the same order, the one with other expressions in place of the expressions of the other, become the same code with these expressions in it, or both are left alone; only None, booleans and strings may make a difference.", "quantifier": "every shipped API with a matcher, every two valid calls of it, every text of the arguments", "why_tests_cant": "matchers look at the texts; a name or a call that contains the text looked for is not in the tests", "anchors": ["paconvert/api_matcher.py:IndexCopyMatcher.generate_code", "paconvert/api_matcher.py:RNNBaseMatcher.generate_code", "paconvert/api_matcher.py:OneCycleLRMatcher.generate_code", "paconvert/api_matcher.py:Device2StrMatcher.generate_code", "paconvert/api_matcher.py:GenericMatcher.generate_code"]}
{"id": "C81", "title": "A flag that becomes an option keeps its meaning", "statement": "Where Paddle has an option with a text in place of a boolean parameter, the code asks for what the parameter asked for: as a literal, as an expression with the value known only at run time, and if it is not given.", "quantifier": "the flags of data sets, recurrent layers and qr; every valid call, every combination of the other arguments, every expression", "why_tests_cant": "the value is known at run time only; combinations of arguments; a test that compares code cannot see that an option means the opposite", "anchors": ["paconvert/api_matcher.py:MNISTMatcher.generate_code", "paconvert/api_matcher.py:CifarMatcher.generate_code", "paconvert/api_matcher.py:RNNMatcher.generate_code", "paconvert/api_matcher.py:QrMatcher.generate_code"]}
{"id": "C82", "title": "A negated flag has the opposite value", "statement": "Where Paddle has a boolean parameter with the opposite meaning (time_major for batch_first, fftbins for sym, sync_op for async_op, exclusive for count_include_pad, set_to_zero for set_to_none, stop_gradient for requires_grad, full_matrices for some), the expression in the code has the opposite value of the expression of the user, whatever it is, and if the parameter is not given the code does the opposite of the default.", "quantifier": "every valid call with such a parameter, every boolean expression, every value of its names", "why_tests_cant": "needs the precedence of the operators in arbitrary expressions; tests pass literals and names", "anchors": ["paconvert/api_matcher.py:GenericMatcher.generate_code", "paconvert/api_matcher.py:SignalWindowsWatcher.generate_code", "paconvert/api_matcher.py:ReverseAsyncOpMatcher.generate_code", "paconvert/api_matcher.py:AvgPoolMatcher.generate_code", "paconvert/api_matcher.py:RNNMatcher.generate_code", "paconvert/api_matcher.py:ZeroGradMatcher.generate_code", "paconvert/api_matcher.py:SvdMatcher.generate_code", "paconvert/api_matcher.py:LinalgSolveTriangularMatcher.generate_code"]}
{"id": "C83", "title": "Excluded packages are left alone", "statement": "With --exclude_packages a,b,.. nothing that comes from these packages is converted or reported: their imports stay as they are, and calls and attributes of what they bring in are left alone. Everything else is converted as without the option. A list with a package that the converter does not know is refused before anything is written.", "quantifier": "every list of packages, every program, every API of the table, every use", "why_tests_cant": "needs every combination of excluded and imported packages and every spelling of imports and uses; the tests do not use the option", "anchors": ["paconvert/main.py:main", "paconvert/transformer/import_transformer.py:ImportTransformer.visit_Import", "paconvert/transformer/import_transformer.py:ImportTransformer.visit_ImportFrom", "paconvert/transformer/basic_transformer.py:BasicTransformer.visit_Call", "paconvert/api_matcher.py:ChangePrefixMatcher.get_paddle_api"]}
{"id": "C84", "title": "Converting the result again changes nothing", "statement": "When the result of a conversion is converted again, in default mode, nothing is found to convert: the second result is the first one, and nothing is counted or reported.", "quantifier": "every program, every iteration order of the sets of packages, every expression, call and attribute in the result", "why_tests_cant": "needs the fixpoint for every program; the tests convert every snippet once", "anchors": ["paconvert/transformer/import_transformer.py:ImportTransformer.visit_Import", "paconvert/transformer/import_transformer.py:ImportTransformer.visit_ImportFrom", "paconvert/transformer/import_transformer.py:ImportTransformer.visit_Attribute", "paconvert/transformer/import_transformer.py:ImportTransformer.visit_Module", "paconvert/transformer/basic_transformer.py:BasicTransformer.visit_Call"]}
{"id": "C85", "title": "A program means the same after the conversion", "statement": "A program that uses torch through APIs for which only the package, the name or the names of arguments change means the same after the conversion, under whatever meaning of the syntax, if the two libraries agree on these APIs as the tables say.", "quantifier": "every program: every import style, every nesting of calls, methods and attributes, every meaning", "why_tests_cant": "end to end over both passes and arbitrary expressions; tests compare texts of short snippets", "anchors": ["paconvert/transformer/import_transformer.py:ImportTransformer.visit_Attribute", "paconvert/transformer/import_transformer.py:ImportTransformer.visit_Name", "paconvert/transformer/import_transformer.py:ImportTransformer.visit_Module", "paconvert/transformer/basic_transformer.py:BasicTransformer.visit_Attribute", "paconvert/transformer/basic_transformer.py:BasicTransformer.visit_Call", "paconvert/transformer/basic_transformer.py:BasicTransformer.trans_class_method", "paconvert/api_matcher.py:ChangePrefixMatcher.get_paddle_nodes"]}
{"id": "C86", "title": "Functions of the operating system are left alone", "statement": "A call of a function of os or os.path, or of a method of os.environ other than get, is left alone: it is not taken for a method of a torch class, not counted and not reported.", "quantifier": "every function of the module, every file, every answer of the matchers", "why_tests_cant": "the name of every function has to be compared with all methods of five classes in the tables, under every combination of imports", "anchors": ["paconvert/transformer/basic_transformer.py:BasicTransformer.visit_Call", "paconvert/global_var.py:GlobalManager", "paconvert/api_matcher.py:TensorRenameMatcher", "paconvert/api_mapping.json"]}
{"id": "C87", "title": "A use as a value does not stop the run", "statement": "Naming an API without calling it (as a value, a base class, a decorator, an argument default, a target) never makes the conversion end with an exception: the use is replaced, kept or reported.", "quantifier": "every attribute expression, every file and import state, the shipped tables", "why_tests_cant": "all names below and beside the entries of the tables", "anchors": ["paconvert/transformer/basic_transformer.py:BasicTransformer.visit_Attribute", "paconvert/transformer/basic_transformer.py:BasicTransformer.trans_class_attribute", "paconvert/base.py:BaseMatcher.get_paddle_api"]}
{"id": "C88", "title": "What is assigned to can still be assigned to", "statement": "When an attribute is the target of an assignment (or of del, for, with), what the tool puts in its place can be a target too: a name or an attribute.", "quantifier": "every attribute expression, every file and import state, the shipped tables", "why_tests_cant": "one entry of the wrong kind suffices; tests of attributes read them", "anchors": ["paconvert/transformer/basic_transformer.py:BasicTransformer.visit_Attribute", "paconvert/transformer/basic_transformer.py:BasicTransformer.trans_class_attribute", "paconvert/api_matcher.py:Attribute2Func"]}
{"id": "C89", "title": "Emitted code uses only names that exist", "statement": "Each name in the code a matcher puts in place of a call is a word of Python, a package whose import the tool writes, a name assigned before in the same code, or a name of the helper that this very call asks for.", "quantifier": "every entry with a modelled matcher, every valid set of arguments and every text of them", "why_tests_cant": "the helper is asked for on some paths of a matcher only; a missing name is an error only when the converted line runs", "anchors": ["paconvert/api_matcher.py:FSoftMinMatcher.generate_code", "paconvert/api_matcher.py:Device2StrMatcher.generate_code", "paconvert/api_matcher.py:IndexCopyMatcher.generate_code", "paconvert/api_matcher.py:DecodeJpegMatcher.generate_code", "paconvert/base.py:BaseMatcher.enable_utils_code"]}
{"id": "C90", "title": "A helper is found where it is used", "statement": "In the written file (single file) and in paddle_utils.py (directory), each name of each requested helper has the definition of that helper, whatever other helpers are requested and in whatever order; a user's own names keep their definitions.", "quantifier": "every list of requested helpers, every hash function, every text of the file", "why_tests_cant": "helpers of different matchers meet only when one program uses both APIs", "anchors": ["paconvert/utils.py:UtilsFileHelper.write_code", "paconvert/utils.py:UtilsFileHelper.add_code", "paconvert/base.py:BaseMatcher.enable_utils_code", "paconvert/api_matcher.py:LogSoftmaxMatcher.generate_utils_code", "paconvert/api_matcher.py:SoftminMatcher.generate_utils_code", "paconvert/api_matcher.py:NTupleMatcher.generate_utils_code"]}
{"id": "C91", "title": "A converted call overwrites no variable", "statement": "The code put in place of a call assigns only names that were generated for it; the variables of the user, among them those in the arguments, are not assigned.", "quantifier": "every entry with a modelled matcher, every valid set of arguments and every text of them, every variable", "why_tests_cant": "a test sees an overwritten variable only if it has one of that name and reads it after the call", "anchors": ["paconvert/api_matcher.py:IndexCopyMatcher.generate_code", "paconvert/api_matcher.py:FromBufferMatcher.generate_code", "paconvert/api_matcher.py:DoubleAssignMatcher.generate_code", "paconvert/api_matcher.py:LRSchedulerMatcher.generate_code", "paconvert/utils.py:get_unique_name"]}
{"id": "C92", "title": "Formulas compute the function", "statement": "Where the converter writes a formula for a function that Paddle lacks (erfc, erfcx, expit, exp2, ndtr, ndtri, xlogy, xlog1py, logaddexp2, addcmul, addcdiv, addmv, addr, addbmm), the value of the formula is the value of the function, for all numbers, infinities and NaN.", "quantifier": "every entry of these matchers, every valid set of arguments, every number", "why_tests_cant": "a test compares a few numbers of moderate size", "anchors": ["paconvert/api_matcher.py:ErfCMatcher.generate_code", "paconvert/api_matcher.py:SpecialErfcxMatcher.generate_code", "paconvert/api_matcher.py:XLogYMatcher.generate_code", "paconvert/api_matcher.py:ExpitMatcher.generate_code", "paconvert/api_matcher.py:LogAddExp2Matcher.generate_code", "paconvert/api_matcher.py:SpecialNdtrMatcher.generate_code", "paconvert/api_matcher.py:SpecialNdtriMatcher.generate_code", "paconvert/api_matcher.py:AddMRMatcher.generate_code", "paconvert/api_matcher.py:AddBmmMatcher.generate_code", "paconvert/api_matcher.py:AddCMulMatcher.generate_code"]}
{"id": "C93", "title": "Functions of matrices", "statement": "The code for lu_solve solves the equation that left and adjoint select, the code for svd returns V and not its adjoint, PositiveDefiniteTransform gives a positive definite matrix and its inv undoes it; for a batch of matrices the result is that of each matrix.", "quantifier": "every invertible matrix, every right-hand side, every matrix and every batch of matrices", "why_tests_cant": "a test solves one system of one size, and the batched case is not tested", "anchors": ["paconvert/api_matcher.py:LinalgLuSolveMatcher.generate_utils_code", "paconvert/api_matcher.py:LinalgLuSolveMatcher.generate_code", "paconvert/api_matcher.py:SvdMatcher.generate_code", "paconvert/api_matcher.py:TransformsPositiveDefiniteTransformMatcher.generate_utils_code"]}
{"id": "C94", "title": "Boxes stay with their image", "statement": "In the code for roi_align, roi_pool and ps_roi_pool each box is used with the image it is given for.", "quantifier": "every batch and every list or tensor of boxes", "why_tests_cant": "a test has one image or boxes that are sorted", "anchors": ["paconvert/api_matcher.py:BoxesConvertMatcher.generate_utils_code", "paconvert/api_matcher.py:BoxesConvertMatcher.generate_code"]}
{"id": "C95", "title": "Rotary embeddings", "statement": "The code for apply_rotary_emb_func rotates each pair of numbers of each row by the angle of its position and leaves the numbers behind the rotated part alone.", "quantifier": "every tensor, every table of cosines and sines, every parameter", "why_tests_cant": "a test compares one tensor of one shape, with as many rows of cos as positions", "anchors": ["paconvert/api_matcher.py:FAApplyRotaryEmbFuncMatcher.generate_utils_code", "paconvert/api_matcher.py:FAApplyRotaryEmbFuncMatcher.generate_code"]}
{"id": "C96", "title": "reduce_scatter_tensor gives every process its rows", "statement": "In the code for reduce_scatter_tensor process r of the group gets the r-th part of the rows of the combined inputs, and has it when the call returns unless async_op is True.", "quantifier": "every number of processes, every group, every operation and all inputs", "why_tests_cant": "a test runs on one machine with one or two processes and no group", "anchors": ["paconvert/api_matcher.py:ReduceScatterTensorMatcher.generate_utils_code", "paconvert/api_matcher.py:ReduceScatterTensorMatcher.generate_code"]}
{"id": "C97", "title": "A converted project is complete", "statement": "After a run on a directory, the output has the image of every file of the project, and the helper module with all helpers that were requested, where the converted files import it from; after a run on a file, the output file has its image with the helpers.", "quantifier": "every project, every list of requested helpers, every output path", "why_tests_cant": "tests convert one file, or look at the files of the project but not at those that collide with the helper module", "anchors": ["paconvert/converter.py:Converter.run", "paconvert/utils.py:UtilsFileHelper.write_code", "paconvert/base.py:BaseMatcher.enable_utils_code"]}
{"id": "C98", "title": "A parameter that is left out has the value of PyTorch", "statement": "If a call leaves out a parameter, the code that replaces it works with the value that PyTorch takes for it, even if Paddle takes another one; if the call gives the parameter, the code works with what the user wrote.", "quantifier": "every call of the API, with every choice of the other arguments", "why_tests_cant": "tests of these calls compare shapes only, or with a tolerance of ten per cent, or on constant inputs, where the value of the parameter does not show", "anchors": ["paconvert/base.py:BaseMatcher.set_paddle_default_kwargs", "paconvert/api_mapping.json", "paconvert/api_matcher.py:OptimAdamMatcher", "paconvert/api_matcher.py:SetPrintOptionsMatcher"]}
{"id": "C99", "title": "A converted training loop has the same learning rates", "statement": "If a program makes learning-rate schedulers for an optimizer and calls step() on them, the optimizer of the converted program has, after each of these calls, the learning rate that the one of the original has.", "quantifier": "every sequence of schedulers and steps of any length, with every choice of the arguments", "why_tests_cant": "the tests run a scheduler for a few steps with one choice of arguments and a high tolerance; they do not make two for one optimizer", "anchors": ["paconvert/api_matcher.py:LRSchedulerMatcher", "paconvert/api_matcher.py:Optim2LrSchedulerMatcher", "paconvert/api_matcher.py:ConstantLRMatcher", "paconvert/api_matcher.py:OneCycleLRMatcher"]}
{"id": "C100", "title": "Projects of one run do not overwrite each other", "statement": "After a run with --separate_convert, the output has the converted form of every file of every project, and the helpers that each of them uses.", "quantifier": "every directory of projects, with every order in which the operating system lists them", "why_tests_cant": "the tests convert one file or one directory in a process; none has two projects with a file of the same name", "anchors": ["paconvert/main.py:main", "paconvert/converter.py:Converter.run", "paconvert/utils.py:UtilsFileHelper.write_code"]}
{"id": "C101", "title": "Calls that are read argument by argument keep their meaning", "statement": "A call of checkpoint, hub.load, Tensor.stft, chain_matmul or testing.make_tensor is refused or has, after the conversion, every argument of the source call that changes the result, at the place where Paddle expects it, with the default of PyTorch for those that are not given.", "quantifier": "every call of these APIs with any number of positional, starred and keyword arguments and any texts", "why_tests_cant": "the tests of these APIs have a handful of calls each; none has arguments of the model or a starred matrix among others, the one with return_complex=False by position is disabled, and the values of make_tensor are not compared", "anchors": ["paconvert/api_matcher.py:CheckPointMatcher", "paconvert/api_matcher.py:HubLoadMatcher", "paconvert/api_matcher.py:MakeTMatcher", "paconvert/api_matcher.py:Chain_MatmulMatcher", "paconvert/api_matcher.py:TensorStftMatcher"]}
{"id": "C102", "title": "Operations on lists of tensors act on each tensor", "statement": "For torch._foreach_f(list) the converted code gives a list of new tensors, the i-th one being f of the i-th tensor, and leaves the list unchanged; for torch._foreach_f_(list) each tensor of the list has been replaced by f of it, and no other tensor has changed.", "quantifier": "every entry torch._foreach_f of the shipped table, every list of tensors, also with the same tensor several times, and every state of the tensors", "why_tests_cant": "the tests have one list of two or three different tensors per API and mostly compare the values of the result", "anchors": ["paconvert/api_matcher.py:ForeachMatcher", "paconvert/api_matcher.py:ForeachTensorMatcher", "paconvert/api_matcher.py:ForeachErfcMatcher", "paconvert/api_matcher.py:ForeachErfc_Matcher"]}
