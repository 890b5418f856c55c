# Formal model of bazelbuild/buildtools in Lean 4 — design

## 1. Trusted base

* Lean 4.33.0's kernel. No axioms beyond `propext`, `Classical.choice`, `Quot.sound`; no compiled-code
  tactics. The axioms of each property theorem are listed in `AXIOMS.txt` (written by `tools/axioms.sh`, which runs `#print axioms`).
* The reading of the Go code: the model is written by hand from `/repo`; every definition cites the
  file and lines it models, and says where it simplifies. The code is not run here. The executable part of the model
  (lexer, parser, rewriter, printer) is additionally run against the golden files in
  `/repo/build/testdata` (see "Conformance" below); that run is evidence for the reading, not part of any proof.
* Go standard library behaviour that is modelled by definition: `strings.*`, `path.*`, `sort.*`, map iteration
  order (arbitrary permutation), slices (lists; aliasing modelled only where a property needs it),
  goroutines/channels (state machine over explicit steps), file system (a function or an oracle argument).

## 2. Conventions

* Go `string`/`[]byte` = `Bytes = List UInt8`. `b!"text"` is an explicit byte list literal.
* Go pointers to nodes: values; mutating functions return the new value. Pointer identity is modelled only for
  the rollback property C09 (heap of slots) and for `processFiles` (none needed).
* `sort.Sort` (unstable): results are stated for *every* sorted permutation the algorithm may return.
* Model modules: `lean/Verif/Model/*.lean`; helper lemmas and generated certificates: `lean/Verif/Proofs/*.lean`;
  property theorems: `lean/Verif/Props/*.lean`, with specifications spelled out beside them and an `example`
  that a concrete case meets the hypotheses.

## 3. What is modelled and how each property is proved

| id | modelled code | how it is proved |
|----|---------------|------------------|
| C01 | `build/quote.go` quote, Unquote, byte for byte (`Model/Quote`) | induction over the string with a suffix invariant, byte table by kernel decision |
| C02 | quote + string scanner of `Lex` (`Model/Scan`) | scanner run on the quoted text, induction; the one exception is characterised |
| C03 | `print.go` StringExpr case | cases on the printing decision + C01; hypothesis: token accepted by the scanner; crashes characterised |
| C04–C07 | `labels/labels.go` (`Model/Labels`) | algebra over byte lists (split at `:`, `/`) |
| C08 | `warn.go` calculateDifference (`Model/Diff`) | common prefix/suffix lemmas |
| C09 | `warn.go` formatWithFix | heap of slots; LIFO restore; arbitrary replacement lists with aliasing |
| C10–C13 | `rewrite.go` byStringExpr, sortStringExprs, deduplicateStringExprs (`Model/SortStrings`) | order laws; chunk decomposition; sorted-permutation uniqueness |
| C14–C15 | `rewrite.go` sortCallArgs, reorderArguments | same; `C14_node`, `C15_node`: what the callback does at every node |
| C16–C20 | `rewrite.go` load rewrites (`Model/Loads`) | permutation + binding multiset; counterexample for comparePaths |
| C21 | editOctals, editFloats (`Model/Numbers`) | byte level; denotation of literals; counterexamples characterised |
| C22 | formatString docstring handling (`Model/Docstring`) | line-wise relation |
| C23–C25, C53 | removeParens, fixLabels, Rewriter.Rewrite, fixMultilinePlus, collapseEmpty | erasure functions, structural induction; for C24 also an inductive relation `Rewritten` that says what becomes of the whole tree, with the labels by `Short`; for C53 also which sums `fixMultilinePlus` leaves alone and that it leaves no break before a list |
| C26 | `walk.go` (`Model/Walk`) | structural induction over the AST |
| C27–C32 | `rule.go`, `edit/edit.go` attribute, dict, list functions | list lemmas, structural induction |
| C33 | `edit.go` RemoveEmptySelectsAndConcatLists | denotational semantics of list expressions under select valuations |
| C34–C36, C59 | `edit.go`, `edit/fix.go`: loads, unused loads, insert/delete rules, package() | list lemmas |
| C37 | `buildozer.go` SplitOnSpaces, splitting of command files (`Model/Split`) | state machine, induction |
| C38–C39 | `buildozer.go` worker pool, rewrite() (`Model/Buildozer`) | transition system, invariant over all schedules |
| C40 | `buildifier.go` processFiles (`Model/Buildifier`) | transition system with channels, invariant, progress measure |
| C41–C42, C57 | processFile decision logic, flags, getFileType | decision tables stated outright |
| C43 | `wspace/workspace.go` (`Model/Wspace`) | recursion over path components |
| C44–C45 | `edit/bzlmod/bzlmod.go` (`Model/Bzlmod`) | list lemmas; graph traversal with visited set |
| C46 | `lex.go` assignComments/order, comment handling of `parse.y` (`Model/Comments`) | counting argument; one lemma per grammar rule, composed along the derivation of C60 |
| C47–C48 | `lex.go` Lex (`Model/Lexer`) | state machine over bytes, invariant |
| C49 | `lex.go` + `parse.y` + `print.go` for files without comments and for files with comments on statements and inside expressions (partial) | C50 applied to a parsed tree: induction over the derivation (C62) shows that the parser builds only trees satisfying `OkStmt`, one lemma per production (`Proofs/ParsedP/E/S/T`); facts about tokens in `Proofs/LexGood`; handing out no comments changes nothing (`Proofs/ParsedFile`); with comments (`C49_comments_partial`, where the comments may be: `Props/CommentPlaces`): the same induction over a derivation with comments, on the tree without its comments (`Proofs/Strip`, `ParsedC`, `OkFree`), then `Proofs/ParsedPlaces` puts the handed-out comments back and C50 with comments applies; with comments inside expressions (`C49_inside_partial`, places: `Props/InsidePlaces`): for every class of trees without comments (`Ok`, `OkParam`, …) an induction shows that a tree with comments which becomes a member of the class when its comments are removed satisfies the class of C50_inside (`Proofs/IxParsed`) |
| C50 | `parse.y` + `lex.go` + `print.go` for trees without comments, with comments on statements and with comments inside expressions | the printer appends a text with a known token sequence (`Proofs/PrintE`, `PrintS`, `PrintC`); how texts, lines and blocks are lexed (`Proofs/Lx`, `LxTok`, `LexLine`); derivations of these tokens with the value `Same` as the tree (`Proofs/GenE`, `GenS`); final step by C61; specification in `Props/RoundSpec`. With comments on statements (`C50_comments`, specification `Props/CommentSpec`): texts are sequences of comment lines, statement lines and blocks (`Proofs/PrintComm`, `PrintBlk`, `PrintStC`), lexed with their comment tokens (`Proofs/LexC`) and derived with the comment productions of the grammar (`Proofs/GenC`), whose actions move comments but no statements (`Proofs/RoundComm`). With comments inside expressions (`C50_inside`, specification `Props/InsideSpec`): inside brackets the lexer skips comments, so the texts of `Proofs/IxLx` may contain comment lines; the printer carries comments to the next line end (`Proofs/IxAdds`), and every expression is printed with comments pending (`Proofs/IxFit`, `IxE`); statements as before (`Proofs/IxS`) |
| C51, C63 | `print.go` (`Model/Print`) | relations kept by every step of the printer (`Proofs/PrRel`), instantiated with the panic flag and with the comments printed or pending; specification in `Props/PrintedSpec`. For parsed files (`Props/Parsed`): inductions over the derivation (C62) showing that the parser builds only trees satisfying `fit` (`Proofs/FitStep`) and leaves no comments where they are not printed except at the places listed by `lost` (`Proofs/NeatStep`), and that handing out comments keeps both (`Proofs/NeatGive`) |
| C52 | `print.go` (`Model/Print`) | the relation of C51 with conditions on the texts in the tree (`fit`), instantiated with "no space before a line end in the output, no line end in pending comments"; the last line by an invariant of the statement loop (`Props/Blank`) |
| C54–C55 | `warn_control_flow.go` (`Model/Flow`) | execution relation of statements |
| C56 | `bzlenv.go` (`Model/Bzlenv`) | stack invariant |
| C58 | `warn.go` FileWarnings (`Model/Warn`) | fold over warnings |
| C60 | `parse.y.go` tables and machine, the actions of `parse.y` | finite facts about the tables by kernel decision (`Proofs/LRCheck`), invariant over runs of the machine |
| C61 | same, against an unambiguous grammar (`Model/Fine`) | certificate for the LALR automaton (item sets with look-ahead), checked by kernel decision (`Proofs/FineCheck`, generated by `tools/lr`); induction over derivations |
| C62 | same, other direction | certificate that each reduction refines (`Proofs/SoundCheck`), invariant over runs |
| C64–C66 | `edit/buildozer.go` commands (`Model/Commands`) | values of attributes as in C29–C33 (`Eval`: the list of elements in every configuration); folds over the arguments; frame by "the arguments defining none of the names are the same"; copy by C50 |
| C67 | dictionary commands (`Model/Commands`) | `dictGet` laws of C28 folded over the arguments; `FirstFor`/`LastFor`/`NoneFor` say which pair counts for a key |
| C68 | `File.Rules`, `RuleAt`, `expandTargets`, `DeleteRule`, `cmdNew` (`Model/Targets`) | statements carry identities, a rule is a statement identity and a path; `Reach` (inductive) says which calls are rules; `Means` gives the meaning of each target spelling |
| C69 | `rewrite`'s loop over commands and rules (`Model/Buildozer.runTarget`, `Model/Targets.ruleCommand`) | `Edited f` (inductive): the same tree with `f` applied to its outermost calls; one step by induction on the path, composition over rules and commands; rules are an antichain |
| C70 | `format` of what `parseFile` reads from what `format` wrote | line counts are carried through the whole printing proof: every printed piece generates, for every place it can stand in, a derivation whose value has the line numbers the printer had, so each layout decision (`forceCompact`, `forceMultiLine`, blank lines, parentheses, line breaks of operators) comes out the same the second time (`RQ`/`RS` in `Proofs/Again`); what the parser forces onto one line is simple (`forced_deriv`) |
| C71 | `analyzeFile`, `IsMacro`, `unnamedMacroWarning` (warn/warn_macro.go) over an arbitrary file reader and map order | specification: `CallsRule`, an inductive reachability over aliases, rules, loads and calls. Positive answers are right by an invariant of the cache; without recursion all answers are right (induction on a rank); with an empty cache a negative answer is right because the visited set is closed (depth-first search); termination by counting functions not yet visited |
| C72 | `findUninitializedVariables`, `findUninitializedIdents`, `extractIdentsFromStmt` (used identifiers), `uninitializedVariableWarning`; nodes are identified by their place in the tree instead of pointers | specification: what an expression reads (`Reads`, inductive) and runs of a function as traces of reads and writes (`ExecL`); for every statement list the reported identifiers, the termination flag and the set of definitely assigned names are characterised by the set of its runs (`RightL`, structural induction) |
| C73 | `unusedLoadWarning` with `UsedSymbols`, `UsedTypes`, `GetTypes`, `ContainsComments`, `SortLoadArgs`, and the application of its replacements in fix mode; messages are kinds | the map `loaded` is the last symbol of each name (invariant); the findings and remaining symbols are those of the inductive specification `Checked`; statements after the fix (`Fixed`), meaning by a fold over the bindings; the second run by distinctness of the remaining names |
| C74 | `unusedVariableCheck`, `unusedVariableWarning`, `extractIdentsFromStmt` (assigned and used), `GetParamIdent`; positions of findings left out | specification: statements of a scope, `Mentions` (inductive over nested functions with shadowing), `Tolerated`; each statement is described by what it adds to the maps, and the maps of a scope are the concatenation over its statements; strong induction over nesting |
| C75 | `unsortedDictItemsWarning` and its replacements; positions of findings left out | specification: `KeyBefore`, `Arranged` (permutation, fixed places, sorted, stable), `Under` (path without marks), `Fixed` (inductive on the tree); uniqueness of arrangements makes `Fixed v w ↔ w = fix v`; insertion sort is the unique stable sort |
| C76 | `packageOnTopWarning`: the scan, the list of replacements and their application | specification: `TooLate`, `Hoisted`; loop invariant over the list of replacements with the partly overwritten region as an arbitrary list |
| C77 | `replaceSkylark` (the regular expression with Unicode case folding, slicing with panics), `skylarkCommentWarning` with the places its pointers point to (field, list element, local variable), `checkSkylarkDocstring` | specification: `Spells`, `Wanted`, `Renamed`, `Outdated`, `Lost`, `Rewritten`; occurrences cannot overlap because only the first byte of an occurrence is a start byte; induction over the tree with a flag for pointers into the tree |
| C78 | `splitOptionsWithSpaces`, `splitStrings` (`strings.Fields` on ASCII blanks), `shortenLabels` (the label-attribute table is any function), `removeVisibility`, `removeTestOnly` | specification: `Words`, `KeptWhole`, `SplitValue`, `ShortOf` (through the denotation of labels of C05), `StringList`, `DefaultVisibility`, `DefaultTestOnly`, `ArgsChange`; induction over sums of lists; `sort.Strings` is any sorting function |
| C79 | `explicitHeuristicLabels` (the regular expression as a division into words and gaps), `addLabels`, `genruleFixHeuristicLabels`, `moveToPackage`, `moveLicenses` | specification: `Tokens`, `Explicit` (inductive on the words read so far), `ExplicitCmd`, `IsCallOf`; the division into words is proved to be the greedy one |
| C80 | `removeVarref`, `sortGlob`, `mergeLiteralLists`, `renameDepsTools`, `sortExportsFiles`, `AllRuleFixes`, `FixRule` | specification: `Merge`, `Varref`, `Glob` on one node, `Steps` (reflexive-transitive congruence closure), `Inside`; generic theorems on `build.Edit` with a partial replacement function, by strong induction on the size |
| C81 | `notLoadedUsageCheck` with both internal checks, `insertLoad`, `useApparentRepoNameIfExternal` (the cache is explicit), and the application of all replacements to the tree (`runWarningsFunction`, no finding disabled) | specification: `Uses`, `Unbound` (through `Binds` and `Ancestors` of C56), `NativeCall`, `Unnative`, `Wanted`, `Prelude`, `RewrittenBelow`, `Loads`, `RepoName`; C56_complete (every node is visited) is proved first; nothing left to report by mapping every node of the new tree back to the old one |
| C82 | `getParam`, `negateExpression`, `attrConfigurationWarning` (with the list it overwrites), `attrNonEmptyWarning`, `attrSingleFileWarning` at one node; the log of findings over a file | specification: `AttrCall`, `First` (first keyword of that name with what is before and after), `Renamed`, `SingleFile`, `Coherent` valuations; `C82_negate` says for exactly which values the negation is right |
| C83 | `keywordPositionalParametersWarning` at one call, `paramType`, `functionName`, `makePositional`, `makeKeyword`; the table of signatures is a parameter | specification: binding of arguments to parameters (`Gives`), `Args` (legal argument lists), `Misplaced`, `MisplacedCount`; the binding is shown to be index-wise for legal lists |
| C84 | the checks of `warn_bazel.go`, with `ruleWarningWrapper` and the application of the replacements of `native` | specification over `occ` (all nodes with their ancestors, C26): `rulesOf`, `Repeated`, `FirstConstant`, `Patterns`, `Native`, `Unnative`; messages left out |
| C85 | `bzlVisibilityWarning` (the regular expression by its four alternatives), `confusingNameWarning`, `nameConventionsWarning`; names are ASCII | specification: `FirstAt`, `Parent`, `Local`, `AsJava`, `Forbidden`; `Introduces`; `Conventional` |
| C86 | all of `warn_docstring.go`; the regular expression as a scanner, `info.args` as the list of its assignments, its iteration order a parameter | specification without state: `InArgs`, `Entry`, `Documents` (line of a section, prefix minimum of indentations), `ArgLine`, `Reported`; proof by an invariant of the loop over lines (`Inv`); `stmtsCount` counts paths |
| C87 | `unused_deps`: manifests, params files, the set of unused labels, the commands; files are values, a crash is `none` | grammar `Value` of folded headers with `Newline`; `Listed` for the lines of a section; end to end `C87_run` by composing `C87_manifest`, `C87_direct`, `C87_unused`, `C87_commands`; the exact conditions of the two crashes |
| C88 | `InterpretLabelForWorkspaceLocation`, `FindRepoBuildFiles`, the choice of the file in `rewrite` (`Model/Files`); the file system is a predicate, the rules of WORKSPACE a list | spec `BuildFile` by cases on the existing files, labels built from lists of path elements; proof by unfolding over `Labels.parse` lemmas |
| C89 | `findBuildFiles` (a stack), `targetExpressionToBuildFiles`, `ExpandDirectories` (`filepath.Walk`); trees as a mutual inductive type | spec `At` (going down a path), result sets as iff; the stack by a permutation invariant, the walk by mutual structural induction |
| C90 | `DetectTypes`: the map from nodes to types becomes a tree of nodes with types and scopes (`Model/Types`), over the environments of `Model/Bzlenv` | spec `Rule` (inductive, with the list of the nodes visited before and `LastAssigned`), proved as iff by an invariant on the traversal (`Timed`); soundness (`Fact`) by induction on the order of visits |
| C91 | the warnings of `warn_operation.go` and the findings of `depsetUnionWarning`, `depsetIterationWarning`; the division fix with the pointers that no longer point into the tree (`Model/Types`) | conditions as iff over the children's types; `Floored`/`AllFloored` (inductive) for the tree after the fix, by induction on the tree of nodes |
| C92 | `ctxActionsWarning` with the copies it makes (`Model/ActionsWarn`: `NewArg`, `live`), `outputGroupWarning`, `contextArgsAPIWarning` over the typed nodes of C90 | `Modern` (one call) and `Updated`/`AllUpdated`/`Grouped` (whole tree) are inductive relations; induction on the size of the tree; `args.add` as an iff |
| C93 | the checks without a fix of `warn_bazel_api.go` (`Model/ActionsWarn`) | each as an iff: membership in the list of findings against a declarative condition, over the nodes of the tree (C26) or its environments (C56) |
| C94 | the test of `Lex` on the line before a comment (`Model/Lexer.isSuffixComment`, `skip`) | `Beside` is a condition on the text of the line; the lexer appends the comment to the suffix or line comments accordingly, by induction over the blanks it skips |
| C95 | `noEffectWarning`, `redefinedVariableWarning`, `overlyNestedDepsetWarning` (`Model/StmtWarn`, over the walk of C54 and the types of C90) | each as an iff between the list of findings and a declarative condition (`Block`/`Useless`/`IsDoc`, `Assigns`, `Nests`); induction over the statements and the depth of the tree |
| C96 | `deprecatedFunctionWarning` (`Model/StmtWarn`), the file reader a function parameter, docstrings as in C86 | iff; the labels as in C27, the docstring through C86 |
| C97 | the actions of all productions, `extractTrailingComments`, the `Span` methods, comment assignment (`Model/Parser`, `Syntax`, `Comments`) | `Located`/`InOrder`/`Nested` state positions against the text; the tokens tile the text (C48), then induction over the derivation (C60) with an invariant per nonterminal: a segment of bytes that holds the value; comments that move out of a body stay behind it; comment assignment keeps spans |
| C98 | `cmdImplUseRepo` with `isExtensionLabel`, `RemoveEmptyUseRepoCalls` (`Model/UseRepo`, on top of `Model/Bzlmod`) | the relation `Asks` says what an argument list means; the effect is stated with the relations of C44 (`Creates`, `Used`, `others`); idempotence: the proxies do not depend on the `use_repo` calls, so the second run finds the same proxies and nothing to change |
| C99 | the callbacks of `sortStringLists`, `sortUseRepoPositionals` and `formatDocstrings` (`Model/Rewriter`) | a relation `Node` says what happens to one node; the callback computes it (`C99_node`, an equivalence, so the relation is a function); `C99_untouched` by induction over the tree |
| C100 | `cmdComment`, `cmdRemoveComment`, `cmdPrintComment` with `listOrSelectFind` (`Model/CommentCmd`, on the state of `Model/Commands`) | `FirstDef` and `Element` say where the change is, `Attached` what it is, `Shown` what is printed; functional induction over the sums; `find_changed`: the string found is the same before and after |
| C101 | `cmdNewLoad`, `cmdReplaceLoad`, `splitLoadArgs` with the arguments it leaves behind, the loop over the targets (`Model/LoadCmd`, on top of `Model/LoadEdit`) | `Names` says what an argument means; from C34; induction over the targets; `C101_later_targets` says exactly what the later targets get |
| C102 | `cmdSubstituteLoad` (`Model/LoadSubst`), with `stringSubstitute` as in C64 and the printer of strings as in C03 | `Stmt` says what becomes of a statement; package regexp is a parameter, of which only `0 ≤ start ≤ end ≤ length` is used |
| C103 | `cmdPrint`, `printRecord` (`Model/PrintCmd`) on the model of rules; `FormatString`, `Itoa` and `%q` are parameters | `Prints` says word by word what is printed, with the names and kinds of C35 and the definitions of C27; induction over the words |

Properties the code violates get a negation witness plus a `_partial` theorem (see section 6).

## 4. What is not modelled

* Reading and writing files (which file a label means and which files a directory holds are C88, C89), flags parsing, protobuf/JSON encodings, `api_proto`, the main program of `unused_deps` (its decisions are C87), `generatetables`, the shell and Bazel glue.
* `tables/`: only the entries a modelled function reads; the tables as a whole are parameters.
* Most warning functions of `warn/`: only the framework (C08, C09, C58), the control-flow warnings (C54, C55, C72–C74), the cosmetic ones (C59, C75–C77), the
  unnamed-macro check (C71), the not-loaded checks (C81), outdated API (C82, C83), the checks of BUILD files (C84), visibility and names (C85), docstrings (C86), types (C90, C91), actions (C92, C93), statements without effect (C95, C96) and the scoping environment (C56).
* Of the commands of `edit/buildozer.go`: print, substitute_load, format and fix as commands; of `edit/fix.go`: `FixFile`, `FixLoads`-style wrappers, Unicode blanks in `strings.Fields`; package `regexp` (a parameter).
* Error messages, and the positions inside them.
* Unicode: the lexer works on bytes (a multi-byte rune is one or more identifier bytes); `unicode.IsSpace` on ASCII.

## 5. Conformance

`lake env lean --run Verif/Conform.lean FILES` runs the model's lexer, parser, comment assignment, rewriter and printer on files and prints the result; against
`/repo/build/testdata` it reproduces 93 of 93 golden files, and it formats the 38 BUILD/bzl files of the repository itself to themselves.
This is evidence that the model was read correctly from the Go code. No theorem uses it.

`tools/mutate.py` applies seeded bugs to a scratch copy and records in `seeded/LOG.jsonl` which theorems fail.

## 6. Findings: places where the code does not do what a user would expect

Parsing and printing
* Unparenthesised tuple: after a comma a conditional is a syntax error (`x = a, b if c else d`); `a = b = c` and `[a for b in c if d else e]` are rejected;
  `{a,,}` is rejected while `(a,,)` and `f(,a,,b,)` are accepted. `not` has the highest precedence, the conditional and comparisons are left associative.
* Printing an unparenthesised tuple increments the bracket depth, so a line break inside one (`x = a, b + \⏎ c`) is printed without a backslash and the output does not parse.
* `ConditionalExpr` is never parenthesised, `is` is missing from `opPrec` (printed with needless or missing parentheses in edited trees); a `DotExpr` on an integer literal prints `1.foo`.
* Comments at `End.Suffix`, `ElsePos.Before`, and After comments of non-statements are never printed; the suffix comment of a load's local name is lost if both names are equal; the name of a `def` is used as a printf format.
* A suffix comment on `def f():  # c` attaches to the previous statement (`C51_moved`). `mkSuite` overwrites Before comments (ruled out by the lexer).
* `FormatString` does not flush pending suffix comments; a trailing space is possible in an unparenthesised tuple with suffix comments.
* A file whose last byte is a backslash after an indentation (`if x:⏎  \`): the skipped backslash-newline does not reset the indentation, so the lexer emits an empty block. The `if` statement with an empty body crashes
  the printer; `def f():⏎  \` is formatted to a text that does not parse (`C49_backslash_crash`, `C49_trailing_backslash`).
* Comments can be merged into one line or reordered on it (`C51_merged`); a comment before `else` is lost (`C51_lost`), so is one at either name of `a = "a"` in a load (`C51_lost_load`) and one after a nested `if` that is printed as `elif` (`C51_lost_elif`); `C51_parsed` shows that no others are lost; a comment after the last statement can be glued to it (`y = a[1:2:]# m  # k`).
* Edited trees with comments: a comment text with a line break becomes a statement, a comment text without `#` becomes code, and a block with nothing but a comment block is printed but rejected when read (`C50_bad_comments`, `C50_empty_block`); a comment at the end of a `for` or `def` statement whose body ends with a comment block is glued to that comment (`C50_comments_witness`).
* A comment inside the brackets of an index expression at the end of the file (`a[b⏎# c⏎]`) is printed directly after the expression (`a[b]# c`); formatting the result again changes it (`C49_index_comment`).
* A comment between the loop variables of a comprehension (`[x for a, # k⏎ b in c]`): they are printed one per line with a trailing comma, which does not parse (`C49_loop_variable_comment`); a line with a trailing
  space is possible there too (`C52_tuple_comment`).
* `IsCorrectEscaping` panics for a backslash followed by a rune ≥ 256. `0xe-5` is one token. `""` followed by `"` is not one token. The lexer's depth can be negative.
* `Unquote` accepts signs in numeric escapes (`ParseInt`).

Rewriting
* `sortStringExprs` continues at the old index after dropping duplicates; `deduplicateStringExprs`, `compressSameOriginLoads`, `joinLabel`, `removeParens` lose comments; `SortLoadArgs` removes duplicates incompletely.
* `comparePaths`/`compareLoadLabels` are not transitive. `editFloats`/`editOctals` may produce invalid or different literals.
* The label regular expression of `fixLabels` and `Shorten` change the meaning of degenerate labels. `formatString` leaves a trailing space after a backslash.
* `Walk` does not visit the children of `TypedIdent` nor the result type of a `def`.

Editing
* `DictionaryDelete` drops entries whose key is not a string; `ReplaceLoad` deletes while ranging; `InsertLoad` ignores a binding of the same name from another origin; `File.DelRules`
  skips statements; `moveToPackage` loses a new `package()`; `RemoveEmptySelectsAndConcatLists` drops comments; a malformed select suppresses all of `allListsFromSelects`; unused-load cleaning ignores type annotations.
* `AddRepoUsages` adds duplicates; `NewUseRepo` aliases.

* buildozer commands: `move a a *` deletes the attribute (`C64_move_to_itself`); `dict_add`/`dict_set` on an attribute that is not a dictionary overwrite it, and entries set before an argument without a colon stay although the command fails;
* `DeleteRule` (edit/edit.go) returns a file without `Pkg`, `Label` and `WorkspaceRoot`, so a target after a `delete` in the same run sees an empty package; `delete` of a rule nested inside another statement (an assignment, an if) changes nothing but the file counts as changed (`C68_delete`);
  `dict_remove` drops entries whose keys are not strings; `replace kind a b` on an attribute called `kind` sets it to nil; `set kind` without a value panics; `print_comment` in the same run does not see what `comment` added (other node);
  `isExtensionLabel` tests for the suffix `//`, so `//:ext.bzl` is not recognised.

Formatting twice
* `use_extension(a, b = [1, 2])` in a `MODULE.bazel` file: the call is kept on one line but the list is not, so the second run formats it differently (`C70_module`); the same for `use_repo`.
* `load('''a\nb''', "c")` (newline escape in a string with three quotes) is printed with a real line break on the first run and with one argument per line on the second (`C70_load`).
* `def f(): pass` followed by a line with a comment in column 0: the comment is printed right after the body on the first run and after a blank line on the second (`C70_comment`), so formatting is not idempotent with comments.

Tools
* buildozer: two spellings of one file lose an update; `-k` drops errors. buildifier: a file given twice is schedule dependent; an unreadable file is reported as success in JSON; `+x` duplicates warnings.
* `wspace.Find` never looks at `/`.
* formatWithFix: the rollback is broken by the rewriting formatter.
* A disabling comment for `function-docstring-args` also disables `function-docstring` (prefix match).
* `bzlenv` forgets the enclosing function after a nested `def`; nested `def` names are not declared in the enclosing block; a bare `*` declares the empty name; assignments inside a top-level `if`/`for` are not globals.
* unnamed-macro: a negative answer computed while a caller is still being analysed is cached for good, so with mutually recursive functions a macro is reported or not depending on Go's map order (`C71_recursion_depends_on_map_order`).
* uninitialized variables: `x += 1` counts as initialising `x` without reading it (`C72_augmented`); arguments of `fail` are not looked at (`C72_fail`); in the default values of a nested function the names of keyword arguments count as read, which gives false reports (`C72_keyword_in_nested_header`); the first iterable of a comprehension is taken to be inside its scope; parameters of a lambda with a default are not bound in its body.
* unused loads (warning): of two unused loads of one name from different places only the first is removed per run (`C73_not_idempotent`); `@unused` on a later duplicate is ignored (`C73_marker_ignored`); symbols used only in `T | None` or in `dict[str, T]` are removed although used (`C73_union_type_removed`, `C73_tuple_type_removed`); the names of parameters without annotation count as types; a disabling comment works only at the first finding of a load, and then for the whole load (`C73_disabled_by_first`).
* unused variables: default values are looked up in the function's own scope, so in `def f(_x = _x)` the outer `_x` counts as unused (`C74_default_shadowed`); type annotations are not uses (`C74_type_annotation`); a function that only calls itself counts as used (`C74_update_and_recursion`).
* package-on-top: the fix moves a package() call in front of load statements and function definitions it uses (`C76_moved_before_use`).
* skylark: a text with two occurrences is damaged (`C77_two_occurrences`: `skylark skylark` becomes `starlarkstarlarkk`); two occurrences with the Kelvin sign panic (`C77_panics`); the look-ahead for a slash is off by one (`C77_slash`); comments at dictionary entries, comprehension clauses and load symbols are reported but never fixed (`C77_dict_entry_lost`), and of two nested outdated nodes only the outer one is fixed if the inner one is held in a field (`C77_nested_lost`).
* fix splitOptions: quoted spaces do not protect an option, the test looks for an apostrophe directly followed by a quote (`C78_split_quoted`). fix removeVisibility removes `//visibility:private` from exports_files, whose default is public (`C78_visibility_exports`).
* fix genruleFixHeuristicLabels: only location protects a label, so that `$(execpath :in)` gets a `$(location ...)` inside and ordinary words are wrapped (`C79_execpath_wrapped`). fix moveLicenses deletes the licenses and puts nothing in their place if there is no package declaration (`C79_licenses_lost`).
* fix mergeLiteralLists loses the comments at the second list and at the sum (`C80_merge_comments`); fix sortGlob reports a change for every glob (`C80_glob_always`).
* not-loaded checks (native-cc-library and others): a statement `native.cc_library(...)` at top level is not rewritten when a load is inserted, because its address is that of the old statement slice; the second run rewrites it (`C81_top_level_witness`). `def cc_library(): native.cc_library()` becomes a function that calls itself, and its name is loaded besides (`C81_capture_witness`); a native call can be captured by another loaded function (`C81_wrong_binding_witness`). The keyword in `f(CcInfo = 1)` and the symbol in `load(..., y = "CcInfo")` are taken for uses (`C81_false_positive_witness`). The mapping of module names is read once per process and used for all workspaces (`C81_cache_witness`).
* attr-cfg: looking for `cfg = "data"` builds the new list with `append(newCall.List[:i], …)`, which overwrites the list of the old call. With `-lint=warn`, or when the finding is disabled by a comment, the old call is printed: `attr.label(cfg = "data", mandatory = True)` is written back as `attr.label(mandatory = True, mandatory = True)` (`C82_cfg_corrupts`). attr-non-empty: the negation of any variable is `True` (`C82_negate`, `C82_non_empty_witness`). attr-single-file: with `allow_files = y` the value of `single_file` is dropped even if it is not a literal (`C82_single_file_witness`).
* keyword-positional-params: a keyword is only looked at in its own place, so `getattr(name = "n", x = a)` has no finding (`C83_order_witness`).
* native-build: `native.native.x` becomes `native.x`, so a second run has something to do (`C84_native_twice_witness`). duplicated-name: calls inside other calls are no rules, so names given twice there are not seen (`C84_duplicated`).
* bzl-visibility: the comparison is textual, so any package whose name begins with `foo` may load `//foo/private:x.bzl`, and `//internal:x.bzl` is visible everywhere (`C85_visibility_examples`). confusing-name: parameters of lambdas are not looked at (`C85_confusing_examples`).
* docstring checks: the position of an undocumented-name finding counts the indentation of the docstring twice (`C86_args_example`); a line `: text` documents the argument with the empty name (`C86_empty_name_witness`); the indentation of arguments is kept from one `Args:` section to the next, so deeper arguments of the second are not found (`C86_second_section_witness`).
* unused_deps: the mode for extra actions (`-extra_action_file`) passes the params file as the output path and so never reports anything (`C87_extra_action_witness`); the key of a manifest is found inside another key (`C87_key_witness`); `buildLabel[:2]` crashes on elements shorter than two bytes in rules of other repositories (`C87_commands_crash`, `C87_crash_witness`); a params file that ends with `--direct_dependencies` crashes it (`C87_direct_crash`).
* Build files: if a directory has both BUILD and BUILD.bazel, `...` finds both, but for either name BUILD.bazel is opened, so it is edited twice (concurrently) and BUILD never (`C88_one_file_witness`); the label of a regular file `/w/MY` opens `/w/MYBUILD` if that exists (`C88_wrong_file_witness`); the build file of `@r//pkg:t` does not depend on `pkg` (`C88_repository`).
* Files: an argument of `buildifier -r` that is a link to a directory is silently ignored (`C89_link_witness`); the suffix of the pattern is `.../BUILD` without a slash, so `//foo...` is accepted as well (`targetFiles`).
* Types: the operands of an operator are taken to have the same type, so `(1 + 0.5) / 2` counts as an integer division and the fix to `//` changes its value; a default value types a parameter (`C90_witness`).
* Operations: in a chain of divisions every second one is missed by the fix, `1 / 2 / 3 / 4` becomes `1 // 2 / 3 // 4`, because the inner replacement is made in the node that has just been replaced by a copy (`C91_chain_witness`); the fix of `x += [e]` drops the comments of the list (`C91_append_comments_witness`).
* Actions: a call of an old function of `ctx` that is directly an argument of another is not fixed (`ctx.new_file(ctx.new_file("a"), "b")`); the two arguments of `new_file` are swapped even if they are keywords, so that `new_file(filename = "a", sibling = s)` gets them wrong (`C92_actions_witness`); comments of `ctx.attr.dep.output_group` are dropped (`C92_output_group_witness`).
* Statements: a list comprehension at the top of a file is not reported as having no effect, the same comprehension in a function or loop, or in braces, is (`C95_no_effect_example`).
* Positions: a `*` parameter without a name has an empty span; a comment block has an empty span and its end is where its first comment starts; the position of a name in a load statement is taken to be one byte after the start of its string (three for triple quotes), which is wrong for a raw string.
* `isExtensionLabel` tests for the *suffix* `//` where the prefix is meant: the label `//:ext.bzl` given to `use_repo_add` (as documented) is taken for a variable name and the command fails (`C98_own_label_witness`). `use_repo_add dev @x//:y.bzl` (two arguments, enough for buildozer) panics with an index out of range (`C98_panics`).
* `comment ATTR TEXT` writes the comment before the attribute's name, `print_comment ATTR` looks at the assignment: in one run it does not see it (`C100_attribute_unseen`). In a file the comment belongs to the assignment, so a second `comment ATTR` does not replace it, the two are joined (`C100_attribute_joined`), while the comments of rules and values are replaced.
* `splitLoadArgs` writes the original names into the slice of the command's arguments, which all targets share: `new_load :m.bzl a=b` on two targets gives the first `load(":m.bzl", a = "b")` and the second `load(":m.bzl", "b")` (`C101_rename_lost`, `C101_later_targets`). Files are processed concurrently, so which target is the first is not determined, and the write is a data race.
* missing-return-value warnings include unreachable bare returns; `fail` is assumed to be the builtin.
