{
 "C02": {
  "note": "Exception characterised: the empty string's quotes followed directly by a double quote."
 },
 "C03": {
  "note": "Holds whenever printing does not crash; crashes characterised exactly (C03_print_string_crash_iff)."
 },
 "C05": {
  "note": "Exact iff, plus witness for degenerate labels (all-@ repositories, targets starting with a colon)."
 },
 "C09": {
  "note": "Exact effect proved for arbitrary formatter; rollback holds iff the formatter leaves the replaced slots alone; witness that a rewriting formatter breaks it."
 },
 "C26": {
  "note": "typedIdent children and def return types are not visited by the code and therefore not by the specification."
 },
 "C50": {
  "note": "C50_comments: trees with comments on statements (before, after, end of line, comment blocks, heads of if/elif/else/for). C50_inside: also comments at the end of the line of any node of an expression, before elements of lists, sets, dictionaries and tuples in brackets, before arguments, parameters, parts of comprehensions and closing brackets; comments before other nodes end the line (C50_comment_in_line) and are excluded, as are After comments of the file. Expressions: trees in which no operand is a conditional and the other listed exceptions of RoundSpec.Ok do not occur; each exception has a witness theorem (C50_conditional, C50_lambda_is, C50_is_not, C50_integer_dot, C50_tuple_line_break) showing that the printed text means something else or is rejected."
 },
 "C51": {
  "note": "Trees: the comments shown are listed by position (PrintedSpec.shown). Parsed files (C51_parsed, C51_source): every comment of the source except those listed by lostL is printed; lostL names three places where the program really loses comments (C51_lost, C51_lost_load, C51_lost_elif). C51_merged: two comments can become one line; C51_moved: a comment moves to another statement."
 },
 "C49": {
  "note": "C49_reformat_partial: every file without comments; C49_comments_partial: every file whose comments are before, after or at the end of statements (or at the end of the line of an if, elif, else or for); C49_inside_partial: also comments inside expressions and parameter lists, before a part that starts a line when printed or at the end of a line. All exclude files that end with a backslash and line breaks inside a tuple without parentheses; these exclusions are necessary (C49_backslash_crash, C49_trailing_backslash, C50_tuple_line_break: the claim is false there). Missing: files with a comment on its own line in the middle of a printed line, such as before an operand or a callee, or on elements of tuples without parentheses (false in general: C49_loop_variable_comment), and files with a comment left over after the last statement (C49_index_comment)."
 },
 "C52": {
  "note": "The final newline holds without conditions. No trailing blanks: for trees without holes whose texts have no blank before a line end (multi-line string literals keep theirs), with single-line comments and no comments inside tuples without parentheses (C52_tuple_comment shows that the claim is false there). C52_parsed: the same for parsed files, with conditions on the source only, except for comments inside tuples without parentheses."
 },
 "C63": {
  "note": "C63_parsed, C63_ascii: the files the parser builds are complete, so formatting parsed sources never panics, unless the source ends in a backslash (C49_backslash_crash) or a string contains a backslash followed by a rune above 255."
 },
 "C64": {
  "note": "For values built from literal lists, selects with literal lists, opaque expressions and +. C64_move_to_itself records that move a a * deletes the attribute."
 },
 "C65": {
  "note": "Commands as listed in CommandFrame.Command; comment, print and fix commands are not among them."
 },
 "C66": {
  "note": "C66_copy: for values that can be printed and read back (the trees of C50). set kind without a value panics in Go and is not covered."
 },
 "C67": {
  "note": "C67_partial_update records that pairs before an argument without a colon stay although the command fails."
 },
 "C68": {
  "note": "A file is a list of statements with identities; C68_delete records that deleting a rule nested inside a statement does nothing."
 },
 "C69": {
  "note": "Without -edit-variables; the commands are any functions on one call (in particular those of C65)."
 },
 "C70": {
  "note": "Proved for every file type but MODULE.bazel, for files without comments; the other exclusions are necessary (C70_module, C70_load, C49_trailing_backslash, C50_tuple_line_break: the claim is false there). Missing: files with comments; there the claim is false in general (C70_comment), and for which comments it holds is not settled."
 },
 "C71": {
  "note": "Reported implies macro for all call graphs and map orders; exact for call graphs without recursion and for the first candidate in general. With recursion the converse is false for some map orders (C71_recursion_depends_on_map_order)."
 },
 "C72": {
  "note": "Exact for all files, with the conventions of the check (arguments of fail, augmented assignment, headers of nested functions) written into the specification of reads; witnesses show where they differ from Starlark."
 },
 "C73": {
  "note": "Exact for all files. The meaning theorem assumes that no load gives one local name to two symbols (Starlark rejects these); the clean-afterwards theorem that no name is loaded from two places (false otherwise, see C73_not_idempotent)."
 },
 "C74": {
  "note": "Exact for all files; positions of the findings are not modelled."
 },
 "C75": {
  "note": "Exact for all trees."
 },
 "C76": {
  "note": "Exact for all statement lists."
 },
 "C77": {
  "note": "The replacement is correct for at most one occurrence per text; the witnesses show that it is wrong for two. Completeness of the fix needs that no replacement is lost (witnesses show the loss is real)."
 },
 "C78": {
  "note": "Exact for all call nodes; shortenLabels for calls with distinct attribute names."
 },
 "C79": {
  "note": "Exact for all texts; moveLicenses for files with and without a package declaration."
 },
 "C80": {
  "note": "mergeLiteralLists exact for all well-shaped trees; completeness of varref not stated (nested varref calls)."
 },
 "C81": {
  "note": "Exact for all well-shaped files without nested file nodes."
 },
 "C82": {
  "note": "The negation is wrong for variables, and the cfg check corrupts the call it reports: both are stated exactly."
 },
 "C83": {
  "note": "Exact for legal argument lists."
 },
 "C84": {
  "note": "Exact lists of findings."
 },
 "C85": {
  "note": "Exact lists of findings."
 },
 "C86": {
  "note": "Exact findings, except for messages."
 },
 "C87": {
  "note": "Running the build tool, decoding protobufs and the text of the commands are not modelled."
 },
 "C88": {
  "note": "Reading and parsing WORKSPACE is a parameter; paths are cleaned."
 },
 "C89": {
  "note": "The file system does not change during the search; the order of the files is not part of the claim."
 },
 "C90": {
  "note": "The assumptions of soundness are those that the code makes silently (a variable has one type, built-in functions are not shadowed, operators keep types)."
 },
 "C91": {
  "note": "The fixes of depset iteration (to_list) are not modelled."
 },
 "C92": {
  "note": "The file type test (only .bzl files) is not part of the model. args.add is modelled at one call, not for calls nested in each other's parameters."
 },
 "C93": {
  "note": "The replacements of globalVariableUsageCheck (another name for the identifier) are not modelled."
 },
 "C94": {
  "note": "bytes.TrimSpace is modelled for ASCII white space only."
 },
 "C95": {
  "note": "Messages are modelled as three kinds."
 },
 "C96": {
  "note": "The file reader is a parameter; its cache is not modelled."
 },
 "C97": {
  "note": "The names in load statements are left out of the children: their positions are computed from the unquoted text. A number such as 1.5 is located by its first token. Files that end with a backslash are excluded (C97_backslash shows why)."
 },
 "C98": {
  "note": "Arguments are assumed non-empty strings; the exception of C98_asks is the panic of C98_panics."
 },
 "C99": {
  "note": "What sorting and deduplicating one list means is the subject of C10 to C13, what laying out a docstring means that of C22; that every node is visited that of C26."
 },
 "C100": {
  "note": "C100_attribute_unseen and C100_attribute_joined are findings: the comment of an attribute is not found by print_comment in the same run, and is added to instead of replaced in the next."
 },
 "C101": {
  "note": "Proved for the first target, and for all targets if no argument contains `=`; false in the code for later targets otherwise (C101_later_targets, C101_rename_lost). replace_load: loads of which two or more symbols are replaced at once are excluded, as in C34."
 },
 "C102": {
  "note": ""
 },
 "C103": {
  "note": "The warning on stderr for a missing attribute is not modelled."
 }
}