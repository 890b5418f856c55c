{"id": "C01", "title": "Quoting round-trips", "statement": "Quoting any byte string (single- or triple-quoted form) yields a literal that Unquote decodes, without error, to exactly that byte string and the same triple flag.", "quantifier": "every byte string, both quoting modes", "why_tests_cant": "the byte-level escape logic (runs of quotes, octal escapes followed by digits, trailing backslashes) has unboundedly many interactions between neighbouring bytes", "anchors": ["build/quote.go: quote", "build/quote.go: Unquote"]}
{"id": "C02", "title": "A quoted string is exactly one token", "statement": "The lexer, started at the opening quote of a quoted string followed by arbitrary further input, consumes exactly the quoted string and nothing more, except that the empty string \"\" directly followed by another quote is read differently; the quoted form contains only bytes 0x20..0x7f (plus newline in triple mode).", "quantifier": "every byte string, both modes, every following input", "why_tests_cant": "a premature or late closing quote depends on the whole string and on what follows it", "anchors": ["build/quote.go: quote", "build/lex.go: Lex (string scanning)"]}
{"id": "C03", "title": "Printing a string literal preserves its value", "statement": "For every string node whose token came from the lexer (or is absent) and whose value may since have been edited, whenever printing does not crash the literal text that is printed decodes to the node's current value and triple flag; printing crashes exactly for the tokens with a backslash followed by a character beyond U+00FF.", "quantifier": "every token the lexer accepts, every value, raw/non-raw, all quote styles", "why_tests_cant": "the printer picks among four code paths (keep token, convert raw quotes, keep if escaping is legal, re-quote) based on the content", "anchors": ["build/print.go: expr (*StringExpr)", "build/quote.go: Unquote, IsCorrectEscaping"]}
{"id": "C04", "title": "Label parse/format round-trip", "statement": "Parsing the formatted form of any label produced by Parse from an absolute label string gives back the same label.", "quantifier": "every absolute label string (prefix // or @, not only @ signs)", "why_tests_cant": "string-splitting edge cases (empty package, target equal to package base, colons or slashes inside targets) are unbounded", "anchors": ["labels/labels.go: Parse, Format"]}
{"id": "C05", "title": "Shortening a label does not change what it denotes", "statement": "Shorten(l, pkg) denotes, relative to pkg, the same target as l; inputs that are not absolute labels are returned unchanged.", "quantifier": "every label string and every package; the exact degenerate inputs where it fails are characterised", "why_tests_cant": "must hold for all label strings a BUILD file can contain", "anchors": ["labels/labels.go: Shorten, FormatRelative, ParseRelative, Equal"]}
{"id": "C06", "title": "Shortening is idempotent and canonical", "statement": "Shorten(Shorten(l)) = Shorten(l); two absolute labels that are Equal relative to pkg shorten to the same string.", "quantifier": "every pair of label strings and every package", "why_tests_cant": "idempotence/canonicity are universally quantified equations", "anchors": ["labels/labels.go: Shorten, Equal"]}
{"id": "C07", "title": "Label equality is an equivalence", "statement": "labels.Equal relative to a fixed package is reflexive, symmetric and transitive, and ignores the optional leading colon and the long/short spelling.", "quantifier": "every triple of label strings, every package", "why_tests_cant": "relational law over all inputs", "anchors": ["labels/labels.go: Equal, ParseRelative"]}
{"id": "C08", "title": "Suggested replacement is exact", "statement": "Replacing bytes [start,end) of the old contents by the suggested text yields exactly the new contents; 0 <= start <= end <= len(old) always holds.", "quantifier": "every pair of byte strings", "why_tests_cant": "overlapping common prefix and suffix make off-by-one errors invisible on most samples", "anchors": ["warn/warn.go: calculateDifference"]}
{"id": "C09", "title": "Suggest mode rolls the tree back", "statement": "In suggest mode, the tree afterwards is the tree before with exactly the slots changed that the formatter itself changed; it is identical to the tree before whenever the formatter leaves the other slots alone, even when several replacements target the same slot.", "quantifier": "every heap of slots and every list of replacements, including repeated targets", "why_tests_cant": "depends on the order in which deferred restores run for arbitrary aliasing", "anchors": ["warn/warn.go: formatWithFix, runWarningsFunction"]}
{"id": "C10", "title": "String-list sort order is a strict total order", "statement": "The comparison used to sort string lists is irreflexive, transitive and total on distinct positions, so the result of sorting does not depend on the sorting algorithm.", "quantifier": "every triple of sort keys", "why_tests_cant": "a comparator bug shows only on particular triples", "anchors": ["build/rewrite.go: byStringExpr.Less, makeSortKey"]}
{"id": "C11", "title": "Sorting a string list keeps exactly the same set of strings", "statement": "Sorting a list of string literals keeps each value exactly once per chunk, invents and loses no value, leaves non-strings in place, and never moves an element across a comment or non-string boundary; each chunk of the result is sorted when no earlier chunk lost a duplicate (otherwise later chunks stay unsorted).", "quantifier": "every expression list", "why_tests_cant": "in-place chunking with index arithmetic over unbounded lists", "anchors": ["build/rewrite.go: sortStringExprs, uniq, isUniq"]}
{"id": "C12", "title": "Sorting a string list is idempotent", "statement": "Applying the string-list sort twice gives the same list as applying it once, whenever no chunk loses a duplicate; the failure is exhibited.", "quantifier": "every expression list", "why_tests_cant": "formatter idempotence is a universally quantified equation", "anchors": ["build/rewrite.go: SortStringList, sortStringExprs"]}
{"id": "C13", "title": "Deduplication keeps first occurrences in order", "statement": "Deduplicating a list keeps the first occurrence of every string value, in the original order, keeps all non-strings, and keeps every whole-line comment of what remains; the comments at risk are characterised exactly.", "quantifier": "every expression list with arbitrary comments", "why_tests_cant": "unbounded lists and comment placements", "anchors": ["build/rewrite.go: deduplicateStringExprs"]}
{"id": "C14", "title": "Sorting call arguments is a stable permutation of the trailing keyword arguments", "statement": "Call-argument sorting permutes only the maximal trailing run of keyword arguments, orders it by (priority, name), keeps repeated names in their original order, leaves everything before it untouched, and is idempotent whatever sorting algorithm is used.", "quantifier": "every argument list, every priority table", "why_tests_cant": "unstable library sort; needs the order to be total", "anchors": ["build/rewrite.go: sortCallArgs, namedArgs.Less"]}
{"id": "C15", "title": "Argument reordering keeps relative order", "statement": "reorderArguments produces positional, then keyword, then *args, then **kwargs arguments, keeping the relative order inside each class, and is idempotent; arguments that were in legal order are untouched.", "quantifier": "every argument list without missing entries", "why_tests_cant": "stability over unbounded lists", "anchors": ["build/rewrite.go: reorderArguments, argumentType"]}
{"id": "C16", "title": "Load-on-top moves only load statements", "statement": "Moving loads to the top yields a permutation of the statements in which loads keep their relative order, non-loads keep theirs, and no load follows an ordinary statement; WORKSPACE files and files with the disabling comment are untouched; it is idempotent.", "quantifier": "every statement list and file type", "why_tests_cant": "in-place index arithmetic over arbitrary statement lists", "anchors": ["build/rewrite.go: moveLoadOnTop"]}
{"id": "C17", "title": "Merging same-origin loads preserves bindings", "statement": "Merging loads of the same module preserves the multiset of (module, original name, local name) bindings, leaves other statements in order, and leaves at most one load per module unless a disabling comment is present (comments on the merged loads are lost).", "quantifier": "every statement list", "why_tests_cant": "unbounded statement lists with arbitrary module repetition", "anchors": ["build/rewrite.go: compressSameOriginLoads"]}
{"id": "C18", "title": "Load sorting only permutes adjacent loads", "statement": "Sorting load statements never moves a load across a non-load statement, never changes non-load statements, and keeps the multiset of loads.", "quantifier": "every statement list", "why_tests_cant": "index bookkeeping over arbitrary chunk structures", "anchors": ["build/rewrite.go: sortLoadStatements"]}
{"id": "C19", "title": "Load label order is a strict weak order", "statement": "The comparison used to sort load statements is a strict weak order on labels that differ otherwise than by letter case, so that the sorted result does not depend on the input order; the failure on case clashes is exhibited.", "quantifier": "every triple of module labels", "why_tests_cant": "order laws quantify over triples of strings", "anchors": ["build/rewrite.go: comparePaths, compareLoadLabels"]}
{"id": "C20", "title": "Load argument sort preserves bindings", "statement": "Sorting load arguments keeps every (from, to) pair when local names are distinct, puts non-renaming symbols first, orders by local name, and is independent of the sorting algorithm.", "quantifier": "every load statement, every sorting algorithm", "why_tests_cant": "library sort is unstable", "anchors": ["build/rewrite.go: SortLoadArgs, loadArgs.Less, deduplicate"]}
{"id": "C21", "title": "Number rewrites preserve the number", "statement": "The octal and float literal rewrites are idempotent and keep the numeric value denoted by the literal; the literals for which this fails (zero exponents, floats with a leading zero) are characterised.", "quantifier": "every numeric token", "why_tests_cant": "unbounded digit strings, exponent edge cases", "anchors": ["build/rewrite.go: editOctals, editFloats"]}
{"id": "C22", "title": "Docstring reindentation only changes whitespace", "statement": "Reindenting a docstring changes only spaces at the start of lines after the first and at the end of all lines but the last; it is idempotent at equal indentation.", "quantifier": "every docstring, every pair of indentations", "why_tests_cant": "arbitrary line structure", "anchors": ["build/rewrite.go: formatString"]}
{"id": "C23", "title": "Removing parentheses never changes meaning", "statement": "Removing redundant parentheses yields a tree that is the same after erasing parenthesis nodes; commented or intentionally multiline parentheses stay.", "quantifier": "every syntax tree", "why_tests_cant": "recursive tree rewriting over unbounded trees", "anchors": ["build/rewrite.go: removeParens", "build/walk.go: Edit"]}
{"id": "C24", "title": "Label canonicalisation preserves label identity", "statement": "The label rewrite replaces a label literal standing alone or in a list by one that denotes the same target, and joins a split label into the concatenation of its parts; in a longer sum a part may be shortened on its own, which is exhibited. The rewrite touches exactly the label attributes of calls without a leave-alone comment, and shortens exactly //a/b:b to //a/b and @r//:r to @r (and labels of the own package, if asked to).", "quantifier": "every string value in a label attribute", "why_tests_cant": "regular-expression semantics over all strings", "anchors": ["build/rewrite.go: fixLabels"]}
{"id": "C25", "title": "Disabled and out-of-scope rewrites never run", "statement": "A file is changed only by rewrites that are enabled and in scope for its type; with an empty explicit rewrite set nothing changes; leave-alone comments protect calls from call sorting and label rewriting.", "quantifier": "every file, every configuration of the rewriter", "why_tests_cant": "combinatorial configuration space", "anchors": ["build/rewrite.go: Rewriter.Rewrite, disabled, rewriteSetContains, leaveAlone"]}
{"id": "C26", "title": "Walk visits every node exactly once in preorder", "statement": "Walking a tree calls the callback exactly once per non-nil node, parents before children, in source order, with the exact ancestor stack; editing with the identity leaves the tree unchanged.", "quantifier": "every syntax tree", "why_tests_cant": "unbounded tree shapes, 29 node kinds", "anchors": ["build/walk.go: Walk, Edit, WalkOnce, walk1, WalkStatements"]}
{"id": "C27", "title": "Attribute get/set/delete laws", "statement": "After setting an attribute, reading it gives the value set and all other attributes are unchanged; deleting removes exactly the first definition and returns its value; setting an existing attribute keeps its position.", "quantifier": "every rule call, every key and value", "why_tests_cant": "algebraic laws over all argument lists", "anchors": ["build/rule.go: SetAttr, Attr, AttrDefn, DelAttr, AttrKeys"]}
{"id": "C28", "title": "Dictionary get/set/delete laws", "statement": "DictionarySet/Get behave like a map with first-match semantics; deleting a key removes it and leaves the other entries; the entries wrongly lost are characterised.", "quantifier": "every dictionary expression, every key and value", "why_tests_cant": "algebraic laws over all dictionaries", "anchors": ["edit/edit.go: DictionarySet, DictionaryGet, DictionaryDelete"]}
{"id": "C29", "title": "Adding to a list attribute is idempotent and complete", "statement": "After adding a value to a list attribute the value is present (up to label equality); every previously present value is still present in the expression or moved up from a select; adding again changes nothing.", "quantifier": "every attribute expression, every value and package", "why_tests_cant": "arbitrary concatenations of lists and selects", "anchors": ["edit/edit.go: AddValueToList, ListFind, FirstList, SelectDelete, sortedInsert"]}
{"id": "C30", "title": "Sorted insertion keeps lists sorted", "statement": "Inserting into a list that is sorted by the insertion order keeps it sorted and adds exactly the item.", "quantifier": "every list and item", "why_tests_cant": "order invariants over unbounded lists", "anchors": ["edit/edit.go: sortedInsert, isExprLessThan"]}
{"id": "C31", "title": "Removing from a list attribute removes all and only the equal labels", "statement": "After deletion no list in the expression (including select branches) contains a label equal to the item, unless protected by a comment when comment-preserving deletion is configured; all other elements stay in order.", "quantifier": "every attribute expression, every item and package, both comment settings", "why_tests_cant": "arbitrary list/select nesting", "anchors": ["edit/edit.go: ListDelete, RemoveFromList, SelectDelete"]}
{"id": "C32", "title": "Replacing in lists touches exactly the equal labels", "statement": "ListReplace replaces exactly the elements equal to the old label, keeps positions and comments, and reports whether anything was replaced.", "quantifier": "every attribute expression, every pair of labels", "why_tests_cant": "universally quantified over lists", "anchors": ["edit/edit.go: ListReplace"]}
{"id": "C33", "title": "Select simplification preserves every configuration", "statement": "Removing empty selects and concatenating literal lists gives an expression that evaluates to the same list of values under every choice of select branches; resolving an attribute keeps, for every choice, the same set of labels.", "quantifier": "every expression, every select-branch valuation", "why_tests_cant": "semantic equivalence over all valuations", "anchors": ["edit/edit.go: RemoveEmptySelectsAndConcatLists, evaluateListConcatenation"]}
{"id": "C34", "title": "Inserting loads makes the symbols available exactly once", "statement": "After InsertLoad every requested symbol's local name is bound by a load of that module; existing loads of the same local names are not duplicated (a different original name is ignored); inserting again changes nothing; statement order is otherwise kept. ReplaceLoad additionally removes the names from all other loads, provided each load has at most one of them.", "quantifier": "every statement list, every from/to pair list, every map iteration order", "why_tests_cant": "Go map iteration order is random", "anchors": ["edit/edit.go: InsertLoad, appendLoad, AppendToLoad, NewLoad, ReplaceLoad"]}
{"id": "C35", "title": "Rule insertion and deletion keep other statements", "statement": "Inserting a statement keeps all others in order and puts it at the documented place; deleting by name or kind removes exactly the matching rules (DelRules: unless the name is that of the directory, where an anonymous rule may be deleted too).", "quantifier": "every statement list", "why_tests_cant": "index arithmetic over all positions", "anchors": ["edit/edit.go: InsertAfter, InsertAtEnd, InsertAfterLastOfSameKind, DeleteRuleByKind, RemoveEmptyPackage, PackageDeclaration"]}
{"id": "C36", "title": "Unused-load cleaning never removes a used symbol", "statement": "After cleaning unused loads every symbol that is used and was loaded is still loaded, loads marked @unused are untouched, and names keep their meaning unless an @unused load binds them too or a module is loaded under two original names; type annotations are not counted as uses.", "quantifier": "every file", "why_tests_cant": "reachability over arbitrary symbol uses", "anchors": ["edit/fix.go: cleanUnusedLoads", "edit/edit.go: UsedSymbols"]}
{"id": "C37", "title": "Command splitting respects escapes", "statement": "Splitting a command line on spaces inverts escaping: joining escaped non-empty words with separators and splitting gives back the words; escaped pipes in command files survive splitting.", "quantifier": "every list of non-empty words over the admissible alphabet", "why_tests_cant": "string grammar over all inputs", "anchors": ["edit/buildozer.go: SplitOnSpaces, saveEscapedPipes, replaceSavedPipes, appendCommandsFromReader"]}
{"id": "C38", "title": "Buildozer's parallel execution is schedule-independent", "statement": "When the files to edit are pairwise distinct files, for every interleaving of workers each file is rewritten exactly once, the run terminates after exactly numFiles results, and the exit code depends only on the per-file outcomes; two names of the same file in one run can lose an update.", "quantifier": "every number of workers >= 1, every set of files, every schedule", "why_tests_cant": "thread interleavings", "anchors": ["edit/buildozer.go: Buildozer"]}
{"id": "C39", "title": "Failed commands leave the file unmodified", "statement": "Unless keep-going is set, if any command fails the file is not written; the file is written only if some command changed it and the formatted contents differ; stdout mode never writes.", "quantifier": "every command list, every command outcome, every option setting", "why_tests_cant": "combinatorial over histories of command outcomes", "anchors": ["edit/buildozer.go: rewrite"]}
{"id": "C40", "title": "Buildifier reads files in parallel but processes them in order", "statement": "For every schedule of reader goroutines the i-th result consumed belongs to the i-th file (no phase error), and no schedule deadlocks before all files are processed.", "quantifier": "every number of files, every schedule", "why_tests_cant": "thread interleavings over striped channels", "anchors": ["buildifier/buildifier.go: processFiles"]}
{"id": "C41", "title": "Check mode never writes and reports exactly the misformatted files", "statement": "In check mode nothing is written and the exit code is 4 iff the formatted contents differ or warnings exist; fix mode writes iff contents differ; parse errors give exit code 1 and never write.", "quantifier": "every file content, every configuration", "why_tests_cant": "decision logic over all mode/lint/outcome combinations", "anchors": ["buildifier/buildifier.go: processFile, run"]}
{"id": "C42", "title": "Flag validation accepts exactly the documented combinations", "statement": "Validation of input type, format, mode and lint flags succeeds exactly on the documented combinations and normalises empty values to the defaults; warning lists are computed as default +added -removed.", "quantifier": "every string value of every flag", "why_tests_cant": "all strings, not just the documented ones", "anchors": ["buildifier/config/validation.go: ValidateInputType, ValidateFormat, ValidateModes, ValidateWarnings"]}
{"id": "C43", "title": "Workspace search finds the nearest ancestor", "statement": "Find returns the nearest ancestor directory containing a qualifying file and fails exactly when no ancestor has one; splitting a path gives components that reassemble to the path.", "quantifier": "every directory depth, every file-system content", "why_tests_cant": "unbounded depth, arbitrary file-system state", "anchors": ["wspace/workspace.go: Find, FindWorkspaceRoot, SplitFilePath"]}
{"id": "C44", "title": "use_repo edits are exact", "statement": "Adding repos to use_repo makes each of them used, never drops an argument; removing repos removes all and only the arguments exporting these repos; duplicates introduced by repeated arguments are characterised.", "quantifier": "every list of use_repo calls and repos", "why_tests_cant": "unbounded lists", "anchors": ["edit/bzlmod/bzlmod.go: AddRepoUsages, RemoveRepoUsages, repoFromUseRepoArg"]}
{"id": "C45", "title": "Module include traversal terminates and reads each file once", "statement": "Collecting apparent names over include() graphs terminates even with cycles, reads each reachable file exactly once, and fails iff some reached file is missing.", "quantifier": "every finite include graph", "why_tests_cant": "arbitrary graphs, cycles", "anchors": ["edit/bzlmod/bzlmod.go: collectApparentNames"]}
{"id": "C46", "title": "Comment assignment loses and duplicates nothing", "statement": "After parsing, every comment of the source file is attached to exactly one place of the syntax tree (the file, a node or a closing bracket; before, beside or after it), with its own text and position, whether the lexer delivered it as a token or put it aside; nothing is lost, duplicated or invented.", "quantifier": "every file the parser accepts", "why_tests_cant": "arbitrary comment/syntax interleavings", "anchors": ["build/lex.go: assignComments", "build/parse.y: extractTrailingComments, suite, stmts, comments"]}
{"id": "C47", "title": "Indentation tokens are balanced", "statement": "For every input the lexer's INDENT and UNINDENT tokens form a balanced sequence with strictly increasing indentation stack, and at end of file every open block has been closed.", "quantifier": "every input byte string", "why_tests_cant": "unbounded nesting and arbitrary inputs", "anchors": ["build/lex.go: Lex"]}
{"id": "C48", "title": "Lexing tiles the input", "statement": "Tokens are consumed left to right; the text of each token is exactly the input bytes between its start position and its end position, and token positions (byte, line) agree with the consumed input.", "quantifier": "every input byte string", "why_tests_cant": "arbitrary bytes including invalid UTF-8", "anchors": ["build/lex.go: Lex, readRune, startToken, endToken", "build/syntax.go: Position.add"]}
{"id": "C49", "title": "Formatting preserves the syntax tree", "statement": "Printing a parsed file and parsing the output gives back the same syntax tree (up to positions, comments' layout and layout flags), for every layout decision.", "quantifier": "every parsed expression/statement tree, every printer state", "why_tests_cant": "unbounded trees, operator precedence, layouts", "anchors": ["build/print.go: expr, seq, statements", "build/parse.y"]}
{"id": "C50", "title": "Operator precedence is respected when printing edited trees", "statement": "For every expression tree (also edited ones) printing inserts parentheses so that parsing the output gives the same tree up to added parentheses; the node kinds where it fails are characterised.", "quantifier": "every expression tree", "why_tests_cant": "unbounded nesting of operators", "anchors": ["build/print.go: expr/addParen/opPrec", "build/parse.y: precedence table"]}
{"id": "C51", "title": "Printing keeps all comments", "statement": "Every comment attached to a printable position of a file is emitted exactly once when the file is printed.", "quantifier": "every tree with arbitrary comments, every layout state", "why_tests_cant": "pending-comment queue interacts with every layout decision", "anchors": ["build/print.go: expr, newline, seq, statements, file"]}
{"id": "C52", "title": "Printed output has no trailing blanks and ends with a newline", "statement": "No line ended by the printer has trailing spaces and non-empty output ends with a newline.", "quantifier": "every file tree", "why_tests_cant": "all layouts", "anchors": ["build/print.go: newline, trim, file"]}
{"id": "C53", "title": "Layout rewrites change only layout", "statement": "fixMultilinePlus and collapseEmpty change only line-break and multiline flags: the tree with layout flags erased is unchanged. fixMultilinePlus leaves sums without lists, and sums whose line breaks all have a use, exactly as they are, and afterwards no line is broken between a + and a list to its right, anywhere in the tree.", "quantifier": "every syntax tree", "why_tests_cant": "recursive mutation over unbounded trees", "anchors": ["build/rewrite.go: fixMultilinePlus, collapseEmpty"]}
{"id": "C54", "title": "Unreachable-statement warnings are sound", "statement": "A statement reported as unreachable can be executed by no run of the function, whatever conditions evaluate to.", "quantifier": "every function body, every execution", "why_tests_cant": "all execution paths", "anchors": ["warn/warn_control_flow.go: unreachableStatementWarning, findUnreachable..."]}
{"id": "C55", "title": "Missing-return analysis is exact on control flow", "statement": "A function with a returning path is reported as possibly falling off its end iff some syntactic execution path ends without return or fail.", "quantifier": "every function body, every execution path", "why_tests_cant": "all execution paths", "anchors": ["warn/warn_control_flow.go: missingReturnValueWarning"]}
{"id": "C56", "title": "Name resolution picks the innermost binding and scopes are balanced", "statement": "Environment lookup returns the binding of the innermost enclosing block; entering and leaving nodes restores the block stack; identifiers of bindings are unique.", "quantifier": "every syntax tree, every traversal", "why_tests_cant": "unbounded nesting", "anchors": ["bzlenv/bzlenv.go: Environment.Get, declare, WalkOnceWithEnvironment"]}
{"id": "C57", "title": "File type detection is total and case-insensitive", "statement": "getFileType depends only on the lower-cased base name and yields exactly the documented type for every name.", "quantifier": "every file name", "why_tests_cant": "all strings", "anchors": ["build/lex.go: getFileType"]}
{"id": "C58", "title": "Warning pipeline determinism and suppression", "statement": "FileWarnings returns findings sorted by line, independent of the order in which warnings are enabled up to ties, never reports a disabled finding, and fix mode reports no fixable finding.", "quantifier": "every file, every list of enabled warnings, every warning function", "why_tests_cant": "all configurations", "anchors": ["warn/warn.go: FileWarnings, runWarningsFunction, DisabledWarning"]}
{"id": "C59", "title": "File-level fixes move and replace exactly the documented statements", "statement": "Moving the package declaration to the top moves exactly the first package() call in front of the first statement that is no comment, string, assignment or load, and nothing else, and is idempotent; x.extend(y) and x.append(y) become x += y and x += [y], and no other statement changes.", "quantifier": "every statement list", "why_tests_cant": "index arithmetic over all positions and statement kinds", "anchors": ["edit/fix.go: movePackageDeclarationToTheTop, usePlusEqual"]}
{"id": "C60", "title": "The parser accepts only sentences of the published grammar and builds their parse", "statement": "If Parse accepts a file then its token sequence is derivable from the grammar in parse.y, the whole input is consumed, and the statements it returns are the value of such a derivation, with every semantic action applied to exactly the parts its production names.", "quantifier": "every input, every length and nesting", "why_tests_cant": "the generated LALR tables (hundreds of states) are only exercised pointwise by tests; soundness ranges over all token sequences", "anchors": ["build/parse.y", "build/parse.y.go: yyParse, yyAct, yyPact, yyPgo, yyDef, yyExca"]}
{"id": "C61", "title": "The parser accepts every sentence of the language, with operators grouped by precedence", "statement": "Every token sequence derivable from the language's unambiguous grammar (operator precedence and associativity spelled out by levels, lambda bodies extending as far as possible, one-line suites taking the line ends after them) is accepted by the parser, and the tree returned is the value of that derivation; so a sequence has at most one tree, and that grammar is a refinement of the published one.", "quantifier": "every derivation of the unambiguous grammar, every length and nesting", "why_tests_cant": "acceptance and grouping by generated LALR tables with precedence-resolved conflicts: infinitely many sentences", "anchors": ["build/parse.y", "build/parse.y.go: yyParse, yyAct, yyPact, yyPgo, yyDef, yyExca"]}
{"id": "C62", "title": "The parser accepts exactly the unambiguous grammar", "statement": "A file parses if and only if its tokens form a sentence of the unambiguous grammar in which operator precedence and associativity, the reach of lambda and the place of conditionals in tuples are spelled out; the tree returned is the value of that sentence's only derivation. So the generated tables resolve every conflict of parse.y in one documented way, on every input.", "quantifier": "every token sequence the lexer can deliver, of any length and nesting depth", "why_tests_cant": "the conflicts of parse.y are resolved in the generated tables per state and lookahead token; a test covers one sentence, the statement is about all of them in both directions", "anchors": ["build/parse.y", "build/parse.y.go: yyParserImpl.Parse, yyAct, yyPact, yyPgo, yyDef, yyExca, yyChk"]}
{"id": "C63", "title": "Printing a complete tree does not panic", "statement": "For every file or expression tree in which nothing is missing (operands, bodies of lambda and if) and whose string literals can be written, with arbitrary comments, positions and layout flags, printing returns a text; the trees for which the printer panics are characterised.", "quantifier": "every syntax tree, every file type", "why_tests_cant": "unbounded trees, all layouts and comment placements", "anchors": ["build/print.go: FormatWithoutRewriting, FormatString, expr, seq, statements, file", "build/quote.go"]}
{"id": "C64", "title": "List commands of buildozer change the value of the attribute as documented", "statement": "For an attribute whose value is built from literal lists, selects, opaque expressions and +, in every configuration: add makes the value the old one plus the given items and nothing else (up to equal labels); remove keeps exactly the elements that no argument names, and deletes the attribute if nothing is left; move takes exactly those elements out of one attribute and puts each into the other; move * moves all; replace and substitute change exactly the elements that match. With -edit-variables, add changes the right-hand side of the variable instead and no other variable.", "quantifier": "every rule, attribute value, list of arguments, package, and meaning of the opaque parts", "why_tests_cant": "values are trees of unbounded size; every configuration of every select has to be considered; sequences of arguments interact", "anchors": ["edit/buildozer.go: cmdAdd, cmdMove, cmdRemove, cmdReplace, cmdSubstitute", "edit/edit.go: AddValueToListAttribute, MoveAllListAttributeValues, ListAttributeDelete, ResolveAttr, ListReplace, ListSubstitute"]}
{"id": "C65", "title": "A buildozer command changes nothing but the attributes it names", "statement": "For every command and every rule: all arguments of the call that do not define an attribute named by the command (positional arguments included) are the same afterwards, in the same order; the comments of the call are the same; its function changes only by set kind; global assignments change only by the commands that may edit variables, and never their names. This also holds if the command reports an error.", "quantifier": "every command with any arguments, every rule, every set of variables", "why_tests_cant": "a frame property over unbounded calls and all commands", "anchors": ["edit/buildozer.go: cmdAdd .. cmdDictListAdd, copyAttributeBetweenRules", "build/rule.go: SetAttr, DelAttr"]}
{"id": "C66", "title": "Attribute commands of buildozer: set, set_if_absent, rename, remove, remove_if_equal, copy", "statement": "set gives the attribute the value described by the arguments and the type of the attribute, and doing it twice is the same as once; set_if_absent does so exactly if the attribute is missing; set kind makes the kind the argument; rename fails without changes if there is nothing to rename or the new name exists, and otherwise moves the value; remove deletes the definition; remove * leaves exactly the name and the positional arguments; remove_if_equal compares as a label or as a name; copy yields a value that is the same expression as the original.", "quantifier": "every rule, attribute, argument list and copied expression", "why_tests_cant": "all trees and all argument lists; copy goes through the printer and the parser", "anchors": ["edit/buildozer.go: cmdSet, cmdSetIfAbsent, getAttrValueExpr, cmdRename, cmdRemove, cmdRemoveIfEqual, cmdCopy, cmdCopyNoOverwrite, copyAttributeBetweenRules", "build/rule.go: SetKind"]}
{"id": "C67", "title": "Dictionary and select commands of buildozer: dict_set, dict_add, dict_remove, dict_replace_if_equal, dict_list_add, set_select", "statement": "dict_set k:v gives every named key the value of the last pair for it, dict_add keeps existing values and takes the first pair for a new key; all other keys and entries are unchanged. An argument without a colon is an error. dict_remove removes exactly the entries with the given keys (and entries whose key is not a string), and the attribute if nothing is left. dict_replace_if_equal replaces the value exactly if it equals the old one. dict_list_add makes the value of the key the set union of old and new elements. set_select builds a select with one branch per distinct key, holding the values given for that key.", "quantifier": "every dictionary, attribute and argument list, every configuration", "why_tests_cant": "unbounded dictionaries, repeated keys, all argument orders", "anchors": ["edit/buildozer.go: cmdDictSet, cmdDictAdd, cmdDictRemove, cmdDictReplaceIfEqual, cmdDictListAdd, cmdSetSelect", "edit/edit.go: DictionarySet, DictionaryGet, DictionaryDelete"]}
{"id": "C68", "title": "The rules of a file and the rule a buildozer target names", "statement": "The rules of a file are exactly the calls reached from its statements without passing through another call, load or function body that hides them, each once and in file order. A target names: the call with that explicit or implicit name, else an exports_files exporting it, else all rules, the rules of a kind, or the rule covering a line. __pkg__ names the package declaration, which is added after the leading loads and comments if missing. delete removes exactly that statement; new inserts exactly one call with that kind and name at the requested place, and fails if the name is taken.", "quantifier": "every file tree, target name, rule name and placement", "why_tests_cant": "unbounded files with nested calls and all target spellings", "anchors": ["build/rule.go: File.Rules, RuleAt, implicitRuleName", "edit/edit.go: FindRuleByName, IndexOfRuleByName, FindExportedFile, DeleteRule, InsertAfter, InsertAfterLastOfSameKind", "edit/buildozer.go: expandTargets, cmdNew, cmdDelete"]}
{"id": "C69", "title": "Running the commands of a target changes exactly the rules the target means", "statement": "If a target is found and no error stops the run, the file afterwards is the file before in which each rule the target means (and that has one of the requested kinds) was replaced by what the commands, one after the other, make of its call; every other rule, every statement and everything around the calls is the same, in the same order. A target that means nothing is an error and changes nothing. For __pkg__ the same holds after the package declaration was added. Attributes no command names keep their values.", "quantifier": "every file, target, kind filter, list of commands on rules, with and without -k", "why_tests_cant": "a whole-file frame property over all trees and all command sequences", "anchors": ["edit/buildozer.go: rewrite, expandTargets, filterRules", "build/rule.go: File.Rules"]}
{"id": "C70", "title": "Formatting is idempotent", "statement": "If a file is parsed and printed, then the printed text can be parsed, its syntax tree is the same up to layout, and printing that tree gives exactly the same bytes: running the formatter on its own output changes nothing.", "quantifier": "every source text of a file type other than MODULE.bazel that parses, has no comments, does not end with a backslash, has no line break in a tuple without parentheses, and no one-line load statement whose module string has a line break", "why_tests_cant": "it relates the printer, the lexer and the parser on all texts; the printer's layout decisions depend on source line numbers, which are those of the first output on the second run", "anchors": ["build/print.go: Format, printer.expr, printer.seq, printer.statements, useCompactMode", "build/parse.y: forceCompact, forceMultiLine, forceMultiLineComprehension", "build/lex.go: ParseDefault, Lex"]}
{"id": "C71", "title": "The unnamed-macro check reports exactly the macros without a name argument", "statement": "Every function reported by the unnamed-macro check is a public function of the file that takes neither a parameter called name nor **kwargs, and it creates targets: it calls a rule (of the native module or one made with rule()), directly or through other functions, aliases and loaded files. If no function calls itself directly or indirectly, every such function is reported; with recursive functions at least the first such function of the file is. The analysis ends, also for files that load one another and functions that call one another in circles.", "quantifier": "every file, every set of other files that can be read, every order in which the calls of a function are looked at (Go's map iteration order)", "why_tests_cant": "it ranges over all call graphs across files and all iteration orders of Go maps; results are cached in the middle of a recursive search", "anchors": ["warn/warn_macro.go: analyzeFile, getFunCalls, IsMacro, unnamedMacroWarning", "build/utils.go: GetParamName"]}
{"id": "C72", "title": "The uninitialized-variable check is exact with respect to the paths of a function", "statement": "Inside a function exactly those identifiers are reported that belong to a variable which the function assigns somewhere and which is not a parameter, and that some run of the function reads before the variable has been assigned, where conditions may turn out either way and loops may run any number of times (including none). Break, continue, return and fail end a path; arguments of fail and the target of an augmented assignment do not count as read; variables of comprehensions and lambdas do not count.", "quantifier": "every file, every function in it (nested ones too), every control flow of if/for/return/fail/break/continue, every run", "why_tests_cant": "the number of paths is unbounded: nested branches and loops combine the sets of initialized variables at every join", "anchors": ["warn/warn_control_flow.go: uninitializedVariableWarning, findUninitializedVariables, collectLocalVariables, extractIdentsFromStmt", "bzlenv/bzlenv.go: CollectLValues"]}
{"id": "C73", "title": "The unused-load check is exact and its fix never changes what a used name means", "statement": "The load check reports a loaded symbol exactly if its local name has not been loaded before and it is neither used (as a name, or in a type annotation) nor marked @unused, or its local name has been loaded before: as a duplicate if the most recent load is from the same place, and as a clash otherwise. The fix removes unused symbols and duplicates only, sorts what remains, drops loads without symbols and touches no other statement; whichever findings are disabled, every name the file needs means the same module and symbol as before. If no local name is loaded from two places, the check is silent after the fix.", "quantifier": "every file, every set of loads (repeated, renamed, marked), every choice of disabled findings, every sorting algorithm", "why_tests_cant": "the findings of a load depend on all loads before it and all uses in the file, and the fixes of several loads are applied one after the other", "anchors": ["warn/warn_control_flow.go: unusedLoadWarning", "edit/edit.go: UsedSymbols, UsedTypes, ContainsComments", "build/utils.go: GetTypes", "build/rewrite.go: SortLoadArgs"]}
{"id": "C74", "title": "The unused-variable check is exact with respect to lexical scoping", "statement": "In the file and in every function (nested ones too), exactly those variables, parameters and functions are reported that are defined in the scope and used neither in it nor in a nested function that does not define the name itself. Not reported are: parameters called name, starting with _ or marked @unused; functions marked @unused; variables whose first assignment is marked, or starts with _ in an unpacking next to other names, or is a loop variable starting with _; and names of a loadable file that do not start with _.", "quantifier": "every file, every nesting of functions, branches and loops, every shadowing of names", "why_tests_cant": "uses propagate through arbitrarily nested scopes with shadowing at each level", "anchors": ["warn/warn_control_flow.go: unusedVariableCheck, unusedVariableWarning, extractIdentsFromStmt", "build/utils.go: GetParamIdent"]}
{"id": "C75", "title": "The unsorted-dict-items check is exact and its fix only sorts literal keys", "statement": "Exactly those entries of dictionaries are reported whose literal key comes right after a literal key that should come later (public before private, //conditions:default last among public ones, otherwise bytewise), in dictionaries not marked @unsorted-dict-items and not inside a marked node. The fix is the unique stable arrangement of the entries with literal keys, keeps all other entries at their places and everything else unchanged; after it nothing is reported, and if nothing is reported it changes nothing.", "quantifier": "every file, every nesting of dictionaries and marks, duplicate and non-literal keys", "why_tests_cant": "stability, places of the other entries and nested replacements must hold for all lists and trees", "anchors": ["warn/warn_cosmetic.go: unsortedDictItemsWarning"]}
{"id": "C76", "title": "The package-on-top check is exact and its fix moves only package declarations", "statement": "Exactly those package() calls are reported that come after a statement other than strings, comments, loads, licenses(), package_group() and package(), with no assignment before them. The fix moves them, in order, to the place of the first such statement; all other statements keep their order; after it nothing is reported. WORKSPACE and MODULE.bazel files are left alone.", "quantifier": "every list of statements", "why_tests_cant": "index arithmetic over all positions and numbers of declarations", "anchors": ["warn/warn_cosmetic.go: packageOnTopWarning", "edit/edit.go: ExprToRule"]}
{"id": "C77", "title": "Renaming skylark to starlark in comments and docstrings", "statement": "A text with no occurrence that is to be replaced is unchanged; one with exactly one such occurrence gets the new name there, in a similar case, and is otherwise unchanged; ASCII texts never make the program panic. Exactly the nodes with an outdated comment are reported, the fix changes nothing but outdated comments, and after it nothing is reported unless a replacement was lost. The docstring check changes exactly the value of the docstring.", "quantifier": "every text, every tree", "why_tests_cant": "all byte strings and all placements of comments in a tree with shared lists and copied fields", "anchors": ["warn/warn_cosmetic.go: replaceSkylark, skylarkToStarlark, skylarkCommentWarning, skylarkDocstringWarning", "warn/warn_docstring.go: getDocstring", "build/walk.go: WalkOnce, WalkPointers"]}
{"id": "C78", "title": "buildozer fix: options, labels, default attributes", "statement": "`fix splitOptions` splits exactly the strings of the lists in copts and linkopts that contain a space (and no '\" and no $(location) into their blank-separated words, keeps everything else, reports a fix iff there is such a string, and one run is enough. `fix shortenLabels` changes only strings in lists of label attributes and each still denotes the same target. `fix removeVisibility` removes visibility iff it is a permutation of the default visibility; `fix removeTestOnly` removes testonly iff it is the literal default.", "quantifier": "every call node, every file around it, every option text", "why_tests_cant": "all option texts, all list concatenations and all package declarations", "anchors": ["edit/fix.go: splitOptionsWithSpaces, splitStrings, shortenLabels, removeVisibility, removeTestOnly", "edit/edit.go: AllLists, ExistingPackageDeclaration"]}
{"id": "C79", "title": "buildozer fix: genrule commands and licenses", "statement": "`fix genruleFixHeuristicLabels` changes nothing but the strings of cmd of a genrule, where exactly the words that are labels of srcs or tools (with or without a colon) and that do not come after a location waiting for its label are wrapped into $(location ...). `moveLicenses` removes exactly the licenses(x) statements, gives the package declaration the last argument as attribute licenses, and leaves other statements and attributes alone.", "quantifier": "every command text, every set of labels, every list of statements", "why_tests_cant": "all texts and label sets", "anchors": ["edit/fix.go: explicitHeuristicLabels, addLabels, genruleFixHeuristicLabels, moveToPackage, moveLicenses"]}
{"id": "C80", "title": "buildozer fix: rewriting of trees, and FixRule as a whole", "statement": "`fix mergeLiteralLists` does nothing but replace [a] + [b] by [a, b]; afterwards no two literal lists are added anywhere in the rule; it reports a fix iff there were two. `fix varref` does nothing but replace varref(\"x\") by \"$(x)\", `fix sortGlob` nothing but sort the first argument of glob calls. FixRule returns nil only if nothing changed, never changes another statement, runs all fixes when none is named, and does nothing for unknown names.", "quantifier": "every expression tree, every list of fix names", "why_tests_cant": "nested sums at every depth and the in-place rewriting of parents after children", "anchors": ["edit/fix.go: removeVarref, sortGlob, evaluateListConcatenation, mergeLiteralLists, FixRule, AllRuleFixes", "build/walk.go: Edit"]}
{"id": "C81", "title": "Symbols that must be loaded: reports, inserted loads and rewritten native calls", "statement": "The check for functions and symbols that are no longer global reports a name iff the file calls it (or mentions it, for symbols) where no enclosing scope binds it, or calls it as native.name. The fix leaves a file without such uses alone; otherwise it adds exactly the used names that are missing to the first load of the module, or puts a new load with exactly the used names, sorted, before the first statement that is neither a comment nor a string; it rewrites native.f(...) to f(...) everywhere inside the statements and changes nothing else. Afterwards nothing is left to report (for a new load: unless a whole statement is native.f(...)), and every used name is loaded from the module. The module's repository is the apparent name, else the legacy name, else its own.", "quantifier": "every file tree, every list of names and every module, every order of map iteration, every sorting function", "why_tests_cant": "all scopes, nestings and placements of calls; idempotence over all files", "anchors": ["warn/warn_bazel_api.go: notLoadedUsageCheck, notLoadedFunctionUsageCheckInternal, notLoadedSymbolUsageCheckInternal, insertLoad, useApparentRepoNameIfExternal", "bzlenv/bzlenv.go: WalkOnceWithEnvironment", "edit/edit.go: AppendToLoad, NewLoad"]}
{"id": "C82", "title": "Outdated parameters of attribute definitions are rewritten in place", "statement": "In attr.xxx(...) calls: cfg = \"data\" is removed and cfg = \"host\" becomes \"exec\"; non_empty = v becomes allow_empty = not v in the same place; single_file = False is removed, another single_file is renamed to allow_single_file and takes over the value of allow_files, which is removed. All other arguments, their order and their comments stay. Exactly the calls with such a parameter are reported, each once and in order of the file. The negated value is the negation of the value for every valuation.", "quantifier": "every call with every argument list, every file tree, every value and every coherent valuation of expressions", "why_tests_cant": "arbitrary argument lists and values; equivalence under all valuations", "anchors": ["warn/warn_bazel_api.go: getParam, negateExpression, attrConfigurationWarning, attrNonEmptyWarning, attrSingleFileWarning", "build/walk.go: WalkPointers"]}
{"id": "C83", "title": "Keyword arguments of builtins: the fixed call gives every parameter the same value", "statement": "A call of a builtin with known positional-only and keyword-only parameters is reported once for each argument given in the wrong form at its index. The fix keeps the function, gives every parameter exactly the value it had (by position or keyword) and leaves a legal argument order; if it changes anything, nothing is left to report. Other calls and nodes are not touched.", "quantifier": "every table of signatures, every call and every legal argument list", "why_tests_cant": "argument lists of any length, all mixes of positional, keyword, *args and **kwargs", "anchors": ["warn/warn_bazel_api.go: keywordPositionalParametersWarning, paramType, functionName, makePositional, makeKeyword"]}
{"id": "C84", "title": "Checks of BUILD files report exactly what they are about, and removing `native` changes nothing else", "statement": "duplicated-name: a rule (a call not inside another call) is reported iff an earlier rule has the same explicit name, so nothing is reported iff the names are unique. constant-glob: each glob is reported with its first pattern without a star. native-build: exactly the nodes native.x are reported, and the fix replaces each by x and changes nothing else; a file without any is not changed. native-package, print, args-kwargs, build-args-kwargs, positional-args: exactly the nodes they describe, once and in order of the file.", "quantifier": "every file tree", "why_tests_cant": "trees of any shape and depth; absence of false negatives and false positives over all of them", "anchors": ["warn/warn_bazel.go: constantGlobWarning, nativeInBuildFilesWarning, nativePackageWarning, duplicatedNameWarning, positionalArgumentsWarning, argsKwargsInBuildFilesWarning, printWarning", "warn/warn.go: ruleWarningWrapper"]}
{"id": "C85", "title": "Private modules and names: what is reported", "statement": "bzl-visibility: if the workspace root is known, exactly the loads are reported, in order, of modules whose label (without repository) contains a directory or package internal or private whose parent (textually) begins neither the path of the file nor that path with the first /javatests/ read as /java/. confusing-name: exactly I, l and O where assigned at top level, or as function, parameter, local or comprehension variable anywhere. name-conventions: exactly the assigned names that mix capital and small letters and are not provider names such as FooInfo or _FooInfo.", "quantifier": "every path, module label, name and file tree", "why_tests_cant": "strings of any length and trees of any depth; first occurrences and prefixes over all strings", "anchors": ["warn/warn_visibility.go: bzlVisibilityWarning", "warn/warn_naming.go: confusingNameWarning, nameConventionsWarning, isUpperCamelCase, isLowerSnakeCase, isUpperSnakeCase", "bzlenv/bzlenv.go: CollectLValues"]}
{"id": "C86", "title": "Docstring checks: what counts as documented, and what is reported", "statement": "A module is reported iff its first statement that is not a comment exists and is no string. A function is reported iff it is a public statement of the file at column 1 with at least five statements (counting those in if and for statements) and no docstring. A line of a docstring documents an argument iff the last line before it that is not empty and not indented more than the docstring is Args: or Arguments: at the indentation of the docstring, the line is indented more, reads `name:` or `name (type):` and is not indented more than any such line before. For each function with a docstring (at any depth) exactly the undocumented parameters (with their stars, if a docstring is required or some argument is documented), the documented names that are no parameters, the heading Arguments:, the missing summary and the undocumented return value are reported.", "quantifier": "every file tree, every docstring text, every iteration order of the map of arguments", "why_tests_cant": "texts with any number of lines and any indentation; the parser of docstrings is a state machine over all lines", "anchors": ["warn/warn_docstring.go: getDocstring, stmtsCount, parseFunctionDocstring, argRegex, moduleDocstringWarning, functionDocstringWarning, functionDocstringHeaderWarning, functionDocstringArgsWarning, functionDocstringReturnWarning", "build/utils.go: GetParamName"]}
{"id": "C87", "title": "unused_deps proposes exactly the elements of deps whose jars the compiler did not use", "statement": "For every params file, jdeps file, set of jars and deps expression: a command is printed for an element iff it is a string in a list of the concatenation, its label denotes the target named by the manifest of a direct-dependency jar, and no explicitly used direct jar has that label; the command moves it to runtime_deps iff a suffix comment mentions runtime. A value in a jar manifest is what follows the first occurrence of `key:`, each line without the space it starts with, for LF, CR and CR LF alike. Direct jars are the lines after the first --direct_dependencies before the next option.", "quantifier": "every text of params files and manifests, every set of jars, every list of used jars, every deps expression, repository and package", "why_tests_cant": "texts with any mixture of newlines and folded lines; every combination of used and unused jars and of spellings of labels", "anchors": ["unused_deps/jar_manifest.go: manifestIndexNewline, jarManifestValue", "unused_deps/unused_deps.go: directDepParams, unusedDeps, writeUnusedDeps, hasRuntimeComment, printCommands"]}
{"id": "C88", "title": "the build file buildozer edits for a label", "statement": "For every workspace root, working directory, set of files and label: `//p:t` is the rule t of package p in the first existing of BUILD.bazel, BUILD, BUCK in the directory of the package (BUILD if none exists), or in the file named by the package if that is a file; a relative label means the same below the working directory, with the package of the working directory in front; `@r//p:t` means the build_file of the last WORKSPACE rule that declares repository r. Whichever of the three names is given, the first one that can be read in that directory is the file that is read and written.", "quantifier": "every workspace root and working directory, every path of a package, every target, every set of regular or readable files, every WORKSPACE file (as the rules it declares)", "why_tests_cant": "every combination of existing build files with absolute, relative and external labels and every depth of directories", "anchors": ["edit/edit.go: InterpretLabelForWorkspaceLocation", "edit/buildozer.go: rewrite, BuildFileNames", "wspace/workspace.go: FindRepoBuildFiles"]}
{"id": "C89", "title": "the files of a directory: //dir/... and buildifier -r", "statement": "For every directory tree: `//dir/...` means exactly the files and links named BUILD.bazel, BUILD or BUCK in dir and the listable directories below, each once, and does not follow links to directories; `buildifier -r` processes exactly the files given and, for directories, the Starlark files below them outside .git directories, each once per argument; it fails iff an argument does not exist or contains a directory (outside .git) that cannot be listed.", "quantifier": "every tree of directories, files, links and unreadable directories, every list of arguments", "why_tests_cant": "trees of any shape, depth and mixture of links and permissions", "anchors": ["edit/buildozer.go: findBuildFiles, targetExpressionToBuildFiles", "buildifier/utils/utils.go: ExpandDirectories"]}
{"id": "C90", "title": "inferred types", "statement": "For every file: an expression gets a type exactly by the rules: literals, displays and comprehensions have theirs, calls of bool/int/float/str/depset/dict/list that of the function, a variable that of the last assignment (in the order of the traversal) of a value with a known type in the same scope, a parameter ctx is a rule context, ctx.actions and ctx.actions.args() follow, comparisons are bool, and arithmetic has the type of the left operand, or of the right one if that is unknown. All nodes are visited except the names of arguments. If variables and operators have one type, every inferred type is right.", "quantifier": "every syntax tree, every scope, every assignment of actual types that meets the assumptions", "why_tests_cant": "trees of any shape; the order of assignments and the scopes interact", "anchors": ["warn/types.go: DetectTypes, walkOnce"]}
{"id": "C91", "title": "warnings about operations on dictionaries, strings, depsets, integers, and their fixes", "statement": "For every file: + and += are reported iff one side is known to be a dictionary; get/pop/setdefault with a named default iff the receiver is known to be one; exactly the iterated expressions known to be strings (depsets) are reported; depset unions likewise; / and /= iff both sides are known to be integers. The division fix turns some of the reported divisions into floor divisions and changes nothing else, and it turns all of them if none is an operand of another; `x += [e]` exactly becomes `x.append(e)`.", "quantifier": "every syntax tree with inferred types", "why_tests_cant": "divisions nested in any way; every combination of operators and types", "anchors": ["warn/warn_operation.go: dictionaryConcatenationWarning, dictMethodNamedArgWarning, stringIterationWarning, integerDivisionWarning, listAppendWarning", "warn/warn_bazel_operation.go: depsetUnionWarning, depsetIterationWarning"]}
{"id": "C92", "title": "fixes for outdated Bazel API: actions, output groups, args", "statement": "For every file: the fix for the old functions of ctx (new_file, file_action, action, ...) replaces calls by calls of the new functions, with the arguments swapped or renamed as the new function wants, and changes nothing else; it replaces all of them (but new_file with more than two arguments) if none is an argument of another. Every ctx.attr.dep.output_group becomes ctx.attr.dep[OutputGroupInfo]. A call args.add on an object known to come from ctx.actions.args() is rewritten exactly if it has before_each, join_with or map_fn, to add_joined or add_all with the parameters renamed.", "quantifier": "every syntax tree, every nesting of calls", "why_tests_cant": "calls nested in any way: a replacement copies the call, so that replacements inside it may be lost", "anchors": ["warn/warn_bazel_api.go: ctxActionsWarning, outputGroupWarning, contextArgsAPIWarning, makePositional, makeKeyword"]}
{"id": "C93", "title": "checks of the Bazel API without a fix", "statement": "For every file: exactly the following are reported: attr.output(default = ...), attr.license(...), depset(items = ...) and depset with a depset as first positional argument, return struct(...) in the top-level functions that a rule call of the file names as implementation, provider calls without fields or documentation, string keys of dictionaries with a forbidden name, and the uses of FileType, PACKAGE_NAME and REPOSITORY_NAME where no binding for the name is in scope.", "quantifier": "every syntax tree; every scope", "why_tests_cant": "trees of any shape, shadowing at any level", "anchors": ["warn/warn_bazel_api.go: attrOutputDefaultWarning, attrLicenseWarning, depsetItemsWarning, ruleImplReturnWarning, providerParamsWarning, attrNameWarning, fileTypeWarning, globalVariableUsageCheck"]}
{"id": "C94", "title": "which comments are beside code", "statement": "For every input: a comment is treated as a suffix comment (written after code on the same line) exactly if the text before it on its line has something that is not white space, does not end in an opening bracket, and is not a closing parenthesis followed by a colon; other comments stand on their own line.", "quantifier": "every input text, every comment in it", "why_tests_cant": "the text before the comment is arbitrary", "anchors": ["build/lex.go: (*input).Lex"]}
{"id": "C95", "title": "statements: no effect, redefined variables, nested depsets", "statement": "For every file: the statements reported as having no effect are exactly the expressions other than calls that stand as statements in a block at any depth, except docstrings and list comprehensions at the top of the file. A statement of the file is reported as redefining a variable exactly if it assigns to a name to which an earlier statement of the file assigns, unless it is += with a list on one side. x = depset(..., transitive = [..., x, ...]) is reported exactly inside a for loop.", "quantifier": "every syntax tree, blocks at any depth", "why_tests_cant": "any nesting of statements, any order of assignments", "anchors": ["warn/warn_control_flow.go: noEffectWarning, redefinedVariableWarning", "warn/warn_bazel_operation.go: overlyNestedDepsetWarning"]}
{"id": "C96", "title": "loaded functions that are deprecated", "statement": "For every file and every file reader: a loaded symbol is reported as deprecated exactly if it is the last of its name in a load statement, the module is a file of the main repository that can be read, and the file defines at its top a function of this name whose docstring has a heading Deprecated:. The report names the function and the file.", "quantifier": "every file, every contents of the loaded files", "why_tests_cant": "depends on the contents of other files, arbitrary docstrings", "anchors": ["warn/warn_deprecated.go: deprecatedFunctionWarning, checkDeprecatedFunction"]}
{"id": "C97", "title": "Positions in the syntax tree", "statement": "For every file that parses and does not end with a backslash: every node of the tree keeps the positions of its own tokens (the text of the token is found in the file at the line, column and byte recorded), the statements lie within the text one after the other, the children of every node lie within its span one after the other without overlap, and no node ends before it starts.", "quantifier": "every source text that parses, every node of its tree at any depth, with comments anywhere", "why_tests_cant": "every one of the 148 productions, chains of elif, comments moved out of blocks of any depth, trees of any size", "anchors": ["build/parse.y: semantic actions, extractTrailingComments", "build/syntax.go: Span methods", "build/lex.go: (*input).order, assignSuffixComments, assignLineComments"]}
{"id": "C98", "title": "The commands use_repo_add and use_repo_remove", "statement": "In a MODULE.bazel file, `buildozer 'use_repo_add [dev] <label> <extension> <repos>'` (or `<variable> <repos>`) fails if the file has no proxy of the extension; otherwise afterwards exactly the repos used before plus the given ones are used through the extension's proxies (for use_repo_remove: those used before without the given ones), every statement that is not one of its use_repo calls is unchanged, and giving the command again changes nothing. Other files are refused. Afterwards use_repo calls left without a repo are deleted and nothing else is.", "quantifier": "every file, every list of at least two non-empty arguments, every way the proxies may be written", "why_tests_cant": "files and argument lists of any size; the proxies must be found by label up to the module's own names", "anchors": ["edit/buildozer.go: cmdImplUseRepo, cmdUseRepoAdd, cmdUseRepoRemove, isExtensionLabel", "edit/edit.go: RemoveEmptyUseRepoCalls, isEmptyUseRepoCall", "edit/bzlmod/bzlmod.go: Proxies, AllProxies, UseRepos, NewUseRepo, AddRepoUsages, RemoveRepoUsages"]}
{"id": "C99", "title": "Which lists buildifier sorts", "statement": "Formatting sorts the string lists in the value of an attribute (the list itself, the operands of sums, the branches of select) exactly if the file is a BUILD, WORKSPACE or MODULE file, no enclosing node says `buildifier: leave-alone`, the tables or the user allow sorting this attribute of this kind of rule and the deny list does not forbid it; with `do not sort` only duplicates are removed. Elsewhere a list is sorted exactly if it, its first element, or the assignment or dictionary entry it is the value of says `keep sorted`, and `unsafesort` is not disabled. A file in which nothing asks for it is not changed. Only use_repo calls with three or more arguments have their arguments sorted, and only triple-quoted first statements of functions are laid out anew as docstrings.", "quantifier": "every configuration of the rewriter, every file, every node at any depth", "why_tests_cant": "combinations of tables, flags, comments and nesting", "anchors": ["build/rewrite.go: sortStringLists, findAndModifyStrings, sortUseRepoPositionals, formatDocstrings, allowedSort, leaveAlone, leaveAlone1, doNotSort, keepSorted"]}
{"id": "C100", "title": "The commands comment, remove_comment and print_comment", "statement": "`comment [ATTR [VALUE]] TEXT` puts the lines of TEXT before the rule, before the first definition of the attribute, or before one string of its lists (also those in selects) that means the same label as VALUE, in place of the comments there; one line goes behind the value or string instead if end-of-line comments are preferred. `remove_comment` removes the comments of that place. Neither changes anything else, and nothing at all if the place does not exist. `print_comment` shows in one line what the comments of the place say; after `comment` it shows the text (for a rule or a string), after `remove_comment` nothing.", "quantifier": "every rule, every text, attribute and value, every shape of the value (sums of lists and selects of any size), whatever comments are there before", "why_tests_cant": "values nested to any depth, texts with any number of lines; the string found must be the same one every time", "anchors": ["edit/buildozer.go: cmdComment, cmdRemoveComment, cmdPrintComment, commentsText", "edit/edit.go: listOrSelectFind, listsFind, allListsIncludingSelects, allListsFromSelects, AllLists, AllSelects", "build/rule.go: AttrDefn"]}
{"id": "C101", "title": "The commands new_load and replace_load on several targets", "statement": "`new_load PATH [TO=]FROM...` gives every target's file a load of PATH in which each local name TO stands for FROM, keeps all other loaded symbols and adds nothing else; `replace_load` does so and removes the local names from all other loads. This holds for every target, in whatever order they are processed. (In the code it holds for the first target only, if there are arguments with `=`.)", "quantifier": "every list of arguments, every list of files, every order of Go's maps", "why_tests_cant": "the arguments are shared by all targets and changed by the command: what a target gets depends on the targets before it", "anchors": ["edit/buildozer.go: cmdNewLoad, cmdReplaceLoad, splitLoadArgs, rewrite, appendCommands", "edit/edit.go: InsertLoad, ReplaceLoad"]}
{"id": "C102", "title": "The command substitute_load replaces paths of loads and nothing else", "statement": "`substitute_load REGEXP TEMPLATE` replaces, in every load statement whose path matches the expression, the part that matches by the expanded template. The same symbols are loaded under the same local names in the same order, loads that do not match and all other statements are kept as they are, and what is printed for a path reads as the new path, however the old one was written.", "quantifier": "every file, every regular expression and template", "why_tests_cant": "it must hold for every expression and every way of quoting the old path; the literal keeps its old spelling next to the new value", "anchors": ["edit/buildozer.go: cmdSubstituteLoad", "edit/edit.go: stringSubstitute", "build/print.go: StringExpr"]}
{"id": "C103", "title": "The command print shows what is asked for", "statement": "`print WORDS` prints one line for a rule: for every word, in order, what the documentation says. `kind`, `name`, `label`, `rule`, `startline`, `endline`, `path` and `attrs` have their own meaning; any other word is an attribute, for which the value of its first definition is printed (the text of a string, quoted if it contains a space; the texts of a list of strings in brackets; a name or a number; any other expression formatted), or `(missing)`. Without words it prints name and kind. If the label of a rule without a name is asked for, nothing is printed.", "quantifier": "every rule, every file it is in, every list of words", "why_tests_cant": "words, kinds of values and repeated definitions combine freely", "anchors": ["edit/buildozer.go: cmdPrint, printRecord", "build/rule.go: Attr, AttrKeys, AttrStrings, Kind, Name", "labels/labels.go: Format"]}
