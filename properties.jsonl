{"id": "C01", "title": "Reported matches are real matches (soundness)", "statement": "Whenever match, starts_with or search reports success, the reported span, and every capture group reported with it, is a match of the pattern under the usual declarative meaning of regular expressions (concatenation, alternation, m-to-n repetition, groups, anchors, boundaries, positive lookaround, backreferences).", "quantifier": "for every pattern in the modelled syntax (without negative lookaround, whose soundness is the completeness question C02), every subject of any length, every flag combination, every start position", "why_tests_cant": "Tests check finitely many pattern/subject pairs; the matcher is a backtracking machine with unbounded recursion over both.", "anchors": ["include/ctre/evaluation.hpp: evaluate (all overloads)", "include/ctre/wrapper.hpp: match_method, starts_with_method, search_method"]}
{"id": "C02", "title": "No match is missed on patterns with unambiguous loop bodies (completeness)", "statement": "If some span starting at the attempt position is a declarative match of the pattern and every repeated sub-pattern is non-empty and can match in at most one way from any position (for example a character class or a literal string), the attempt reports success. This is with CTRE_DISABLE_GREEDY_OPT; with the optimisation it also holds for the patterns of C34. Outside this fragment the claim is false: (?:a|ab)*c does not match \"abc\".", "quantifier": "for every pattern in the stated fragment, every subject, every start position", "why_tests_cant": "Missing a match on some long subject needs a universal statement over subjects; no finite set of positive tests excludes it.", "anchors": ["include/ctre/evaluation.hpp: evaluate for repeat/lazy_repeat/possessive_repeat, evaluate_recursive, end_cycle_mark"]}
{"id": "C03", "title": "match covers the whole subject", "statement": "If match reports success then get<0>() begins at the first and ends at the last position of the subject: nothing is left unmatched on either side.", "quantifier": "for every pattern, flag set and subject", "why_tests_cant": "Every pattern/subject pair would have to be tried, including patterns that can stop early.", "anchors": ["include/ctre/wrapper.hpp: match_method::exec", "include/ctre/evaluation.hpp: evaluate(assert_subject_end)"]}
{"id": "C04", "title": "match implies starts_with implies search", "statement": "If match succeeds on a subject then starts_with succeeds on it with a span starting at the beginning; if starts_with succeeds then search succeeds with a span starting at the beginning, with the identical result.", "quantifier": "for every pattern, flag set and subject (match-to-starts_with: for evaluations that terminate)", "why_tests_cant": "The three entry points build different evaluation stacks, and the greedy optimisation inspects the stack; agreement is a statement over all patterns.", "anchors": ["include/ctre/wrapper.hpp: match_method, starts_with_method, search_method"]}
{"id": "C05", "title": "search returns the leftmost match", "statement": "If search reports a span starting at i then no attempt at any earlier position succeeds; if search reports failure then the attempt fails at every position of the subject including the end position.", "quantifier": "for every pattern that search does not treat as anchored, every flag set, every subject", "why_tests_cant": "Absence of an earlier match is universal over positions and subjects.", "anchors": ["include/ctre/wrapper.hpp: search_method::exec"]}
{"id": "C06", "title": "The anchored-pattern shortcut of search never loses a match", "statement": "When search decides from the pattern alone to try only the first position, no later position could have matched. Provable when no repetition with minimum zero precedes the anchor; false in general: search for (?:^a)*b in \"xb\" fails although position 1 matches.", "quantifier": "for every pattern the shortcut recognises, every flag set and subject", "why_tests_cant": "A syntactic analysis is claimed to be sound for all subjects.", "anchors": ["include/ctre/starts_with_anchor.hpp: starts_with_anchor", "include/ctre/wrapper.hpp: search_method::exec"]}
{"id": "C07", "title": "Captures lie inside the subject", "statement": "In every successful result, every capture that tests true has begin <= end and both inside the subject, and get<0>() has that property as well.", "quantifier": "for every pattern, flag set, subject and start position", "why_tests_cant": "Capture positions are written and rolled back along all backtracking paths.", "anchors": ["include/ctre/return_type.hpp: regex_results::start_capture, end_capture, set_start_mark, set_end_mark", "include/ctre/evaluation.hpp: evaluate(capture...)"]}
{"id": "C08", "title": "Matching never reads outside the subject", "statement": "No attempt dereferences an iterator at or past the end, or steps before the beginning, of the subject.", "quantifier": "for every pattern, flag set, subject and start position inside the subject", "why_tests_cant": "Undefined behaviour on one input pair is invisible to tests on others.", "anchors": ["include/ctre/evaluation.hpp: evaluate (all overloads dereferencing current or std::prev(current))"]}
{"id": "C09", "title": "Matching terminates", "statement": "Every attempt returns. Provable for every pattern in which each repeated sub-pattern either always consumes input or contains no greedy repetition that may take zero iterations; false in general: matching (?:a*a?)* against \"b\" does not return.", "quantifier": "for every pattern in the stated class, flag set, subject and start position", "why_tests_cant": "Termination is a liveness statement over all inputs.", "anchors": ["include/ctre/evaluation.hpp: evaluate_recursive, repeat loops, end_cycle_mark", "include/ctre/flags_and_modes.hpp: not_empty_match, consumed_something"]}
{"id": "C10", "title": "Alternation is ordered", "statement": "The result for a pattern A|B followed by any continuation is the result of A with the continuation when that succeeds, and the result of B with the continuation otherwise.", "quantifier": "for all alternatives, continuations, flags, subjects and positions", "why_tests_cant": "Preference has to hold in every context the alternation can occur in.", "anchors": ["include/ctre/evaluation.hpp: evaluate(select)"]}
{"id": "C11", "title": "Greedy takes the most, lazy the fewest, possessive all iterations", "statement": "For a repeated single character class X: X{m,n} followed by a continuation K uses the largest iteration count (within bounds and the available run of X characters) for which K succeeds; the lazy form uses the smallest such count; the possessive form uses the maximal run and never gives back.", "quantifier": "for every character class, bounds m and n, continuation, subject and position (greedy: with the first-character optimisation disabled or its condition met)", "why_tests_cant": "Maximality quantifies over all iteration counts and continuations.", "anchors": ["include/ctre/evaluation.hpp: evaluate(repeat), evaluate_recursive, evaluate(lazy_repeat), evaluate(possessive_repeat)"]}
{"id": "C12", "title": "Repetition counts are respected", "statement": "X{m,n} matches only by concatenating between m and n matches of X, X{m,} only at least m. An upper bound of zero is treated as unbounded, so a{0} behaves like a*, contrary to its PCRE meaning.", "quantifier": "for every X, m, n, subject, position", "why_tests_cant": "Counting has to be right for all bounds and all lengths.", "anchors": ["include/ctre/evaluation.hpp: less_than, less_than_or_infinite, evaluate(repeat...)", "include/ctre/actions/repeat.inc.hpp: repeat_exactly, repeat_ab"]}
{"id": "C13", "title": "Atomic groups and possessive repetition do not backtrack", "statement": "The result of an atomic group or possessive repetition followed by a continuation is determined by the first (preferred) way the group matches: if the continuation fails after it, the whole fails.", "quantifier": "for every group content, continuation, subject and position", "why_tests_cant": "Non-backtracking must hold for every content and continuation.", "anchors": ["include/ctre/evaluation.hpp: evaluate(possessive_repeat), evaluate(atomic_group)"]}
{"id": "C14", "title": "Lookahead is zero-width", "statement": "A positive lookahead succeeds exactly when its content matches at the current position and leaves the position unchanged, keeping captures set inside; a negative lookahead succeeds exactly when the content does not match, and changes neither position nor captures.", "quantifier": "for every content, continuation, subject and position", "why_tests_cant": "Zero-width behaviour must hold for every content.", "anchors": ["include/ctre/evaluation.hpp: evaluate(lookahead_positive), evaluate(lookahead_negative)"]}
{"id": "C15", "title": "Lookbehind inspects the text before the position", "statement": "For lookbehind content built from characters, classes, strings, concatenation and alternation, a positive lookbehind succeeds exactly when some stretch of the subject ending at the current position matches the content; a negative one exactly when none does.", "quantifier": "for every such content, subject and position", "why_tests_cant": "Right-to-left matching of a rotated pattern has to agree with left-to-right meaning for all contents.", "anchors": ["include/ctre/rotate.hpp: rotate", "include/ctre/evaluation.hpp: evaluate(lookbehind_positive), evaluate(lookbehind_negative)"]}
{"id": "C16", "title": "Backreferences repeat the captured text", "statement": "A backreference to a group succeeds exactly when the group has been captured and the subject at the current position starts with exactly the captured text, and advances by its length. Case-insensitive mode is not honoured by backreferences.", "quantifier": "for every captured span, subject, position", "why_tests_cant": "Captured text is arbitrary and unbounded.", "anchors": ["include/ctre/evaluation.hpp: match_against_range, evaluate(back_reference), evaluate(back_reference_with_name)"]}
{"id": "C17", "title": "Anchors", "statement": "\\A holds only at the beginning, \\z only at the end, ^ at the beginning or (multiline) after a newline, $ at the end or (multiline) before a newline, \\Z at the end or (multiline) before a final newline; . matches any character, except newline in multiline mode.", "quantifier": "for every subject, position and flag set", "why_tests_cant": "All positions of all subjects.", "anchors": ["include/ctre/evaluation.hpp: evaluate(assert_subject_begin/end/end_line, assert_line_begin/end), evaluate(any)"]}
{"id": "C18", "title": "Word boundaries", "statement": "\\b holds at a position exactly when one of the neighbouring characters is a word character and the other is not (a missing neighbour counts as non-word). \\B should be its complement; instead, at every interior position the compiled \\B succeeds exactly where \\b does.", "quantifier": "for every subject and position", "why_tests_cant": "All positions of all subjects; existing tests exercise the library type not_word_boundary rather than the parsed \\B.", "anchors": ["include/ctre/evaluation.hpp: evaluate(boundary), evaluate(not_boundary)", "include/ctre/actions/boundaries.inc.hpp"]}
{"id": "C19", "title": "Case-insensitive matching ignores ASCII case", "statement": "With case_insensitive, changing the case of any ASCII letters of the subject changes no outcome: success, span and captures stay the same. Needs patterns without backreferences and Unicode properties, without switching case sensitivity back on, and whose character ranges with a letter endpoint have two lower-case or two upper-case letter endpoints or are otherwise closed under case; false for [Y-b].", "quantifier": "for every such pattern, every subject and every change of letter case", "why_tests_cant": "Quantifies over pairs of subjects.", "anchors": ["include/ctre/atoms_characters.hpp: character::match_char, char_range::match_char", "include/ctre/evaluation.hpp"]}
{"id": "C20", "title": "Character classes denote the documented sets", "statement": "\\d, \\w, \\s, \\h, \\v and the POSIX classes match exactly the documented code points, the upper-case escapes and [^...] exactly the complement, and a bracket set the union of its members.", "quantifier": "for every code unit value (unbounded) and every bracket expression", "why_tests_cant": "Code units range over the full character type; sets are arbitrary.", "anchors": ["include/ctre/atoms_characters.hpp", "include/ctre/actions/class.inc.hpp"]}
{"id": "C21", "title": "search_all yields ordered, non-overlapping leftmost matches and ends", "statement": "Consecutive results of search_all are non-overlapping and in subject order; each is the search result from the end of the previous one; if the pattern never matches the empty string the iteration ends after finitely many results. For a pattern matching empty before the end the iteration never ends.", "quantifier": "for every pattern, subject and iteration step", "why_tests_cant": "Iteration sequences are unbounded.", "anchors": ["include/ctre/iterators.hpp: regex_iterator", "include/ctre/wrapper.hpp: range_method"]}
{"id": "C22", "title": "split partitions the subject", "statement": "Concatenating the pieces of split interleaved with the separators gives back the subject, with one more piece than separators. Requires an unanchored separator pattern that never matches empty; with an anchored pattern that fails, the rest is dropped and iteration never ends.", "quantifier": "for every such pattern and every subject", "why_tests_cant": "Unbounded iteration; loss of text shows only on particular subjects.", "anchors": ["include/ctre/iterators.hpp: regex_split_iterator"]}
{"id": "C23", "title": "tokenize yields contiguous tokens", "statement": "The results of tokenize are adjacent, start at the beginning of the subject, and their concatenation is a prefix of the subject; iteration stops at the first position where the pattern does not match.", "quantifier": "for every pattern and subject", "why_tests_cant": "Unbounded iteration.", "anchors": ["include/ctre/wrapper.hpp: tokenize_method", "include/ctre/iterators.hpp: regex_iterator"]}
{"id": "C24", "title": "Multi-subject ranges filter their input", "statement": "Piping a range of subjects into a pattern yields exactly the results for those subjects that match, in order. Comparing end != iterator (operands in that order) returns the wrong answer.", "quantifier": "for every input sequence and every pattern", "why_tests_cant": "Unbounded input sequences.", "anchors": ["include/ctre/range.hpp: multi_subject_range"]}
{"id": "C25", "title": "UTF-8 subjects are decoded correctly", "statement": "Iterating a well-formed UTF-8 subject yields exactly its code points in order, and match, starts_with and search on it give the results they give on the sequence of code points, with the spans translated to byte offsets. Back references do not compile on UTF-8 subjects; lookbehind works with the standard library of C++20; with an older one, where std::reverse_iterator converts to the member reference of the iterator, only for code points below 256.", "quantifier": "for every sequence of Unicode scalar values", "why_tests_cant": "Over a million code points and unbounded sequences.", "anchors": ["include/ctre/utf8.hpp: utf8_iterator::operator*, operator++", "include/ctre/evaluation.hpp"]}
{"id": "C26", "title": "UTF-8 iteration is safe and reversible", "statement": "On well-formed UTF-8, stepping back undoes stepping forward and captured spans stay inside the buffer; on arbitrary bytes, forward iteration reads only inside the buffer. On a truncated final sequence the reported span extends past the end of the buffer, and stepping back over leading continuation bytes reads before the buffer.", "quantifier": "for every byte sequence", "why_tests_cant": "Malformed inputs are unbounded.", "anchors": ["include/ctre/utf8.hpp: utf8_iterator"]}
{"id": "C27", "title": "Pattern literals are decoded correctly", "statement": "A pattern given as a UTF-8 or UTF-16 literal is decoded to exactly the code points it encodes; the decoded length never exceeds the literal length. A literal is found correct exactly when its code units fall into sequences of a leading unit with the continuations it announces (in UTF-16: no high surrogate is followed by a unit other than a low surrogate), the end alone being allowed to cut a sequence off.", "quantifier": "for every sequence of Unicode scalar values and every sequence of code units", "why_tests_cant": "All code points in all positions.", "anchors": ["include/ctll/fixed_string.hpp: fixed_string"]}
{"id": "C28", "title": "Every pattern is either accepted or rejected", "statement": "The parser returns accept or reject on every pattern string, never runs forever and never stops undecided, and accepts only after reading the whole pattern. The middle part is false: on ((?im)a), [[:alpha:]-z] and some other texts the parser stops undecided; it holds on every text without the seven features of C74.", "quantifier": "for every pattern string over all code points", "why_tests_cant": "All strings.", "anchors": ["include/ctll/parser.hpp", "include/ctre/pcre.hpp"]}
{"id": "C29", "title": "A literal pattern matches exactly itself", "statement": "For a pattern string without special characters, match succeeds on a subject exactly when the subject equals the pattern, and search succeeds exactly when the subject contains it, reporting its first occurrence.", "quantifier": "for every non-special pattern string and every subject", "why_tests_cant": "End-to-end statement over all strings.", "anchors": ["include/ctre/pcre.hpp", "include/ctre/actions/sequence.inc.hpp", "include/ctre/evaluation.hpp: evaluate(string)"]}
{"id": "C30", "title": "Capture groups are numbered by opening parenthesis", "statement": "The capture groups of a parsed pattern are numbered 1, 2, 3, ... in the order of their opening parentheses, without gaps or duplicates, and the result object has exactly one slot for each (groups in lookbehind or atomic groups excepted). For any accepted pattern the slots have positive, increasing numbers and all groups together consecutive ones; only a mode group with several letters, which drops what is before it, can make the numbers begin above 1.", "quantifier": "for every accepted pattern string (increasing and consecutive numbers), for every text of the documented syntax (numbers from 1)", "why_tests_cant": "All patterns.", "anchors": ["include/ctre/actions/capture.inc.hpp", "include/ctre/find_captures.hpp"]}
{"id": "C31", "title": "Parsing inverts printing", "statement": "Printing a pattern tree built from characters, dot, anchors, classes, concatenation, alternation, groups, captures and repetition in the concrete syntax and parsing it gives the tree back (up to the documented flattening of sequences and literals).", "quantifier": "for every such tree", "why_tests_cant": "Trees are unbounded.", "anchors": ["include/ctre/pcre.hpp", "include/ctll/parser.hpp", "include/ctre/actions"]}
{"id": "C32", "title": "Numbers in patterns", "statement": "A decimal count in {..} and a hexadecimal code in \\x{..} denote the written number, provided it is below 2^64; larger numbers wrap around silently.", "quantifier": "for every digit string", "why_tests_cant": "All digit strings.", "anchors": ["include/ctre/actions/repeat.inc.hpp: create_number/push_number", "include/ctre/actions/hexdec.inc.hpp"]}
{"id": "C33", "title": "Escape sequences denote their characters", "statement": "\\n \\r \\t \\f \\a \\0 denote 0x0A 0x0D 0x09 0x0C 0x07 0x00 and escaped punctuation denotes itself, in and outside bracket sets. \\e denotes 0x14 instead of the ESC character 0x1B.", "quantifier": "for every escape letter, in every context", "why_tests_cant": "Contexts are unbounded.", "anchors": ["include/ctre/actions/characters.inc.hpp", "include/ctre/pcre.hpp"]}
{"id": "C34", "title": "The greedy-to-possessive optimisation does not change results", "statement": "Replacing a greedy repetition by a possessive one when the first characters of the body and of what follows are disjoint does not change any result. Holds when case is not ignored, or the letters of the pattern are all written in the same case (ASCII letters that a class contains with case ignored are contained in that case without), for patterns in which the content of every repetition consumes something, what follows a greedy repetition consumes something or contains no boundary and no begin anchor, and the end of a line is not tested in multiline mode. False in general: case-insensitive a*A on \"aa\", [a ]*\\b on \"a  \", a*\\A on \"a\", (?:a*){1} on \"\".", "quantifier": "for every pattern in the class, every subject", "why_tests_cant": "Equality of two matchers on all inputs.", "anchors": ["include/ctre/evaluation.hpp: evaluate(repeat), collides", "include/ctre/first.hpp"]}
{"id": "C35", "title": "Non-colliding first sets are disjoint", "statement": "If the first-character analysis reports that two character sets do not collide, no character belongs to both. Holds for case-sensitive matching, and for case-insensitive matching of classes written in the same case, with ranges whose ends are in order and character constants below 2^31; false for a and A in case-insensitive mode.", "quantifier": "for every pair of character-set lists and every code unit", "why_tests_cant": "All pairs of sets and all code units.", "anchors": ["include/ctre/first.hpp: collides, point_set, negative_helper"]}
{"id": "C36", "title": "Fusing adjacent repetitions preserves meaning", "statement": "Combining X{a,b}X{c,d} into one repetition when building the pattern does not change the set of matches. Holds for greedy and lazy repetition with a<=b, c<=d whose sums do not overflow; fails for possessive repetitions followed by more pattern: a*+a++b matches \"ab\".", "quantifier": "for every X, bounds, subject, position", "why_tests_cant": "All bounds and subjects.", "anchors": ["include/ctre/actions/sequence.inc.hpp: make_sequence/combine_repeat"]}
{"id": "C37", "title": "Flags and inline modes", "statement": "When several flags are given the last one of each kind wins; an inline mode (?i) (?c) (?m) (?s) affects exactly what is to its right, also beyond the end of the group it is written in, and is undone after each iteration of a repetition. A mode of several letters such as (?im) is misread: in the first alternative of a pattern, each letter after the first removes one item from the beginning of that alternative (items with groups aside), so (?im)a is (?m)a and xy*(?im)a is y*(?i)(?m)a.", "quantifier": "for every flag list and pattern", "why_tests_cant": "All lists and patterns.", "anchors": ["include/ctre/flags_and_modes.hpp", "include/ctre/actions/mode.inc.hpp", "include/ctre/evaluation.hpp: evaluate(mode_switch)"]}
{"id": "C38", "title": "Result comparison operators are consistent", "statement": "For the results of match, starts_with and search and for their captures, x == view is true exactly when x is matched and its text equals view, x != view is its negation, and the order of the operands does not matter. For captures the second half fails when the capture is unmatched: both comparisons are false. The comparison is undefined for an empty match at the end of the subject, because the end iterator is dereferenced (except with MSVC).", "quantifier": "for every result and every view", "why_tests_cant": "All results and views.", "anchors": ["include/ctre/return_type.hpp: captured_content::storage operator==, operator!=, regex_results operator==, operator!="]}
{"id": "C39", "title": "Named and numbered access agree", "statement": "get by name returns the same capture as get by the number of the first group carrying that name, and every group is reachable by its number.", "quantifier": "for every pattern and every result", "why_tests_cant": "All patterns.", "anchors": ["include/ctre/return_type.hpp: captures, regex_results::get"]}
{"id": "C40", "title": "Results do not depend on how patterns are bracketed", "statement": "Non-capturing grouping and the nesting of concatenations do not change any result: the pieces X, Y, Z evaluated as (XY)Z, X(YZ) or flattened XYZ give the same outcome.", "quantifier": "for all patterns X, Y, Z, continuations, subjects", "why_tests_cant": "All patterns (excludes the effect of the greedy optimisation and repetition fusion, covered by C34, C36).", "anchors": ["include/ctre/evaluation.hpp: evaluate(sequence)", "include/ctre/actions/sequence.inc.hpp"]}
{"id": "C41", "title": "Zero-terminated subjects behave like views", "statement": "Matching a zero-terminated character array gives the same result as matching a view of the characters before the first NUL.", "quantifier": "for every pattern and every array", "why_tests_cant": "All arrays.", "anchors": ["include/ctre/wrapper.hpp: zero_terminated_string_end_iterator"]}
{"id": "C42", "title": "When two iterators compare equal", "statement": "Two iterators over the same subject from one search_all (or one tokenize) call, of which the second was incremented at least as often, compare equal exactly if every result the second one has passed or stands on since the first is empty and lies where the result of the first one ends. So iterators with the same number of increments are equal, and an iterator standing on a non-empty result differs from all earlier ones and is greater. The converse use as a test for the end fails, which is a defect: an iterator on the last result compares equal to the exhausted iterator, though only one of them equals end(). != is the negation of ==, and the four order comparisons agree with them.", "quantifier": "for every pattern whose captures are numbered as the parser does, every subject and every pair of iterator states", "why_tests_cant": "All pairs of states over all subjects.", "anchors": ["include/ctre/iterators.hpp: regex_iterator operator==/!="]}
{"id": "C43", "title": "The MSVC greedy variant computes the same result", "statement": "The alternative loop used for MSVC greedy repetition gives the same results as the default recursive one.", "quantifier": "for every body, bounds, continuation, subject, position", "why_tests_cant": "Equality of two implementations on all inputs.", "anchors": ["include/ctre/evaluation.hpp: evaluate(repeat) under CTRE_MSVC_GREEDY_WORKAROUND"]}
{"id": "C44", "title": "Every call yields a result", "statement": "match, starts_with and search compile, read only the subject and return, for every pattern in which every group and back reference refers to a group of the result, lookbehinds contain no repetition, group or back reference, the first-character analysis can handle the greedy repetitions (or is disabled), and each iteration of an unbounded repetition consumes something. Not compiling: a*(?i)b, [^\\W]*b, (?<=a*), (?>(a)).", "quantifier": "for every such pattern, flag set, subject and start position", "why_tests_cant": "Whether a template instantiation or a read is reached depends on the pattern and the subject; all of them have to be considered.", "anchors": ["include/ctre/evaluation.hpp", "include/ctre/first.hpp", "include/ctre/find_captures.hpp", "include/ctre/return_type.hpp: captures::exists, select"]}
{"id": "C45", "title": "The accepted texts are exactly the texts of the documented syntax", "statement": "A pattern text compiles exactly if it can be read according to the grammar of patterns (characters, escapes, classes, sets, groups, lookaround, back references to groups that exist, quantifiers, alternatives); it can be read in one way only, and the pattern has the meaning of this reading. Excepted are texts that contain (? followed by two mode letters, which the library accepts without giving them a meaning, or )?+.", "quantifier": "for every text over all code points", "why_tests_cant": "All texts, accepted and rejected ones.", "anchors": ["include/ctre/pcre.hpp", "include/ctll/parser.hpp", "include/ctre/actions"]}
{"id": "C46", "title": "The reported match is the preferred one", "statement": "List the ways in which a pattern matches from a position in order of preference: earlier alternatives first, greedy repetitions with more iterations first, lazy ones with fewer first, and only the first way of a lookaround, an atomic group, a possessive repetition and of each iteration of a repetition. starts_with reports the first way, match the first way that ends at the end of the subject, search the first way from the first position with any; get<0>() and all captures are those of this way, and failure is reported only if there is no way. If the content of every repetition can match in at most one way, the list is the usual one, in which all the ways of an iteration are tried.", "quantifier": "for every pattern whose repeated content cannot match the empty text unnoticed, every subject, position and mode (with CTRE_DISABLE_GREEDY_OPT, or for patterns on which the optimisation is harmless)", "why_tests_cant": "The order of preference decides among many matches with different captures; there are infinitely many patterns and subjects.", "anchors": ["include/ctre/evaluation.hpp", "include/ctre/wrapper.hpp"]}
{"id": "C47", "title": "Testing a Unicode property never reads outside of the tables", "statement": "Whatever property a pattern with \\p names and whatever the value of the character is (also a value that is no code point, such as a negative char converted to char32_t), the test reads only inside the tables of the Unicode database.", "quantifier": "for every property name and value and every 32-bit character value", "why_tests_cant": "There are 2^32 values for each of about 700 properties, and a read outside of an array need not show in a test.", "anchors": ["include/unicode-db/unicode-db.hpp", "include/ctre/atoms_unicode.hpp"]}
{"id": "C48", "title": "\\p{category} matches exactly the code points of the general category", "statement": "\\p{name} for a long or short name of a general category or a group of categories matches exactly the code points of the category in Unicode 14.0, and \\P{name} exactly the others. False for Pd and P (15 dashes, among them U+002D, are missing), for Cn (which contains these dashes), for C (which does not contain Cn), and for values that are no code points.", "quantifier": "for every category name in any letter case and every code point", "why_tests_cant": "1114112 code points for each category; tests sample a few.", "anchors": ["include/unicode-db/unicode-db.hpp: cp_category, cp_is and their tables", "include/ctre/atoms_unicode.hpp"]}
{"id": "C49", "title": "\\p{script} and \\p{scx=script} match exactly the script", "statement": "\\p{name}, \\p{sc=name} and \\p{script=name} for an accepted name of a script match exactly the code points of the script in Unicode 14.0, \\p{scx=name} and \\p{script_extension=name} exactly those that have the script among their script extensions; the forms with \\P match exactly the others.", "quantifier": "for every accepted name of a script in any letter case and every code point", "why_tests_cant": "1114112 code points for each of 161 scripts.", "anchors": ["include/unicode-db/unicode-db.hpp: cp_script, cp_script_extensions", "include/ctre/atoms_unicode.hpp"]}
{"id": "C50", "title": "\\p{block=name} matches exactly the block", "statement": "\\p{block=name} for an accepted name of a block matches exactly the code points of the block in Unicode 14.0, \\P{block=name} exactly the others.", "quantifier": "for every accepted name of a block in any letter case and every code point", "why_tests_cant": "1114112 code points for each of 320 blocks.", "anchors": ["include/unicode-db/unicode-db.hpp: cp_block", "include/ctre/atoms_unicode.hpp"]}
{"id": "C51", "title": "\\p{age=version} matches exactly the code points of the version", "statement": "\\p{age=v} matches exactly the code points that are assigned in version v of Unicode. This holds for the code points assigned in Unicode 14.0; it is false for the others, which every pattern \\p{age=v} matches.", "quantifier": "for every version and every code point", "why_tests_cant": "1114112 code points for each of 24 versions.", "anchors": ["include/unicode-db/unicode-db.hpp: cp_age", "include/ctre/atoms_unicode.hpp: property<age>"]}
{"id": "C52", "title": "\\p{property} matches exactly the code points with the binary property", "statement": "\\p{name} for an accepted name of a binary property matches exactly the code points that have the property in Unicode 14.0, \\P{name} exactly the others; \\p{Any} matches every code point and \\p{ASCII} those below 128. False for Dash, Extender and Soft_Dotted (most code points are missing), Case_Ignorable (matches nothing), Default_Ignorable_Code_Point, Extended_Pictographic and Pattern_Syntax (unassigned code points are missing), Alphabetic (differs for five code points from Unicode 14.0 as given by later tables) and Assigned (surrogates and private use are missing).", "quantifier": "for every name in any letter case and every code point", "why_tests_cant": "1114112 code points for each of 45 properties.", "anchors": ["include/unicode-db/unicode-db.hpp: cp_property_is and its tables", "include/ctre/atoms_unicode.hpp: binary_property"]}
{"id": "C53", "title": "Exactly the names of the Unicode database are accepted, in any letter case", "statement": "\\p{name} is accepted exactly if name is, up to letter case, a name of a general category, a script or a binary property; every other name is a syntax error at the closing brace. \\P{name=value} is accepted exactly for script, scx, age and block with a name of a value, and does not compile otherwise. \\p{name=value} with any other name or value is accepted as well, but never matches anything, so that a misspelt value goes unnoticed. False for eleven aliases of names and five of blocks, and for the property names gc, blk and Script_Extensions, which are not recognised.", "quantifier": "for every name and value", "why_tests_cant": "Infinitely many names.", "anchors": ["include/unicode-db/unicode-db.hpp: binary_prop_from_string, script_from_string, block_from_string, age_from_string", "include/ctre/atoms_unicode.hpp", "include/ctre/actions/properties.inc.hpp"]}
{"id": "C54", "title": "The general categories partition the code points", "statement": "Every code point is matched by exactly one of the thirty patterns \\p{Cc}, \\p{Cf}, \\p{Cn}, ..., \\p{Zs}.", "quantifier": "for every code point", "why_tests_cant": "1114112 code points and thirty patterns.", "anchors": ["include/unicode-db/unicode-db.hpp: cp_category, cp_is"]}
{"id": "C55", "title": "The accessors of a capture give the text it has captured", "statement": "For a capture that took part in a successful match, size() is the length of its text, to_string(), str(), to_view(), view(), data() and the optional variants give exactly the part of the subject between its ends; to_string() of a successful match is the whole subject. A capture that did not take part has size 0 and an empty string, and its optional variants are empty; after a failed call all optional variants are empty. With utf8_range, size() counts code points. False for to_view() and data() of an empty capture at the end of the subject, which dereference the end iterator, and for size() and to_string() of a failed search, whose result has an end but no begin.", "quantifier": "for every pattern, subject, position, and capture", "why_tests_cant": "All captures of all patterns on all subjects; the failing cases only show with checked iterators.", "anchors": ["include/ctre/return_type.hpp: data_unsafe, size, unit_size, to_view, to_string, to_optional_view, to_optional_string", "include/ctre/return_type.hpp: regex_results"]}
{"id": "C56", "title": "to_number gives the number in front of the captured text", "statement": "to_number<R>(base) of a capture whose text begins with a number (a minus sign only for signed R, then digits of the base) is this number if R can hold it, and 0 otherwise; it is 0 as well if the text does not begin with a number. Decimal digits matched as a whole give their value. Hence a text that is no number cannot be told from 0, not even with to_optional_number().", "quantifier": "for every pattern, subject, capture, base up to 36 and integer type", "why_tests_cant": "Infinitely many numbers, bases and types.", "anchors": ["include/ctre/return_type.hpp: to_number, to_optional_number"]}
{"id": "C57", "title": "The operators | and >> combine patterns", "statement": "For patterns without groups: match and starts_with of a|b have the result of a if that matches, otherwise the result of b; search of a|b has the result that begins first, that of a if both begin at the same position. For regular patterns with unambiguous repetitions match of a>>b succeeds exactly on the concatenations of a subject of a and a subject of b. The statement about a|b also holds for patterns with groups and references by number, for the match and for all groups got by number: those of the pattern that matched have the text this pattern alone reports, every other group did not capture. a>>b, too, finds with groups what it would find if the groups of b had other numbers than those of a; if b has no back references, group i of the result is group i of b, if that captured, and otherwise group i of a. The numbers of the groups of both patterns collide, however: in a>>b a group of a cannot be accessed if the group of b with the same number captured, and in a|b a group of b with the number of a group of a is stored in the latter, so that b's group is empty when got by name, a's group has its text, and a reference to it by name in b fails.", "quantifier": "for all pairs of patterns and every subject", "why_tests_cant": "All pairs of patterns on all subjects.", "anchors": ["include/ctre/operators.hpp"]}
{"id": "C58", "title": "match, starts_with and search decide the regular language of the pattern", "statement": "For a pattern built from characters, classes, the dot, concatenation, alternation, groups and repetitions, match succeeds exactly on the words of its regular language (defined by union, concatenation and powers of languages), starts_with exactly on the subjects that begin with such a word, search exactly on those that contain one; the reported text is such a word. Patterns with the same language therefore succeed on the same subjects. The direction from success to the language holds for all such patterns; the other one if the content of every repetition is unambiguous.", "quantifier": "for every such pattern and every subject", "why_tests_cant": "All subjects over an infinite alphabet, all patterns.", "anchors": ["include/ctre/evaluation.hpp", "include/ctre/wrapper.hpp"]}
{"id": "C59", "title": "Patterns that do not look back ignore the text before", "statement": "If a pattern contains no ^, \\A, \\b, \\B and no lookbehind, then a call that starts at position k of a subject gives, with positions counted from k, exactly the result of the call on the text from k on. Hence search reports what starts_with reports on the first rest of the subject on which starts_with succeeds; the results of search_all and tokenize after one that ends at k are their results over the text from k on; and the pieces of split after a separator are the pieces of the text after it.", "quantifier": "for every such pattern, every subject, every position", "why_tests_cant": "All splits of all subjects; the iterators carry the begin of the original subject through every call.", "anchors": ["include/ctre/evaluation.hpp", "include/ctre/wrapper.hpp", "include/ctre/iterators.hpp"]}
{"id": "C60", "title": "Patterns are read according to the grammar file", "statement": "The parser accepts a pattern text exactly when the grammar file pcre.gram derives the text and all semantic actions of the derivation succeed; the pattern it builds is the one these actions leave. If an action of the derivation rejects, the text is rejected; if none applies, it does not compile. The grammar file is unambiguous: a text has at most one sequence of actions. When a syntax error is reported at position p, the first p characters are the beginning of a text that the grammar file derives.", "quantifier": "for every pattern text and every derivation of the grammar", "why_tests_cant": "Infinitely many texts and derivations; the tables of pcre.hpp are generated and use other nonterminals than the file.", "anchors": ["include/ctre/pcre.gram", "include/ctre/pcre.hpp", "include/ctll/parser.hpp"]}
{"id": "C61", "title": "Calls as they are written: literals, subjects and functions of the interface", "statement": "For every function of the interface (match, search, starts_with, search_all, tokenize, split, iterator; single line or multiline, with any modifiers) and every pattern: the answer does not depend on whether the pattern literal is UTF-8, UTF-16 or UTF-32; a zero-terminated subject gives the answer for the characters before the NUL; a well-formed char8_t subject gives the answer for its code points with positions replaced by byte offsets, if the pattern has no back reference, and no lookbehind unless the standard library is that of C++20; the members of a _ctre literal behave as the functions; a range of subjects piped into a function visits the successful results in order. Together with the other properties: if match or search with a char8_t literal on a char8_t subject succeeds, the code points of the subject are described by the written text; for regular patterns match returns and decides the language. False and proved to be false: that a malformed literal is rejected, that a UTF-16 or a non-ASCII char literal matches itself.", "quantifier": "for every literal, every subject, every function of the interface, every number of increments of the returned iterators", "why_tests_cant": "All literals, subjects and iterator positions; encodings and functions combine.", "anchors": ["include/ctre/wrapper.hpp", "include/ctre/range.hpp", "include/ctre/iterators.hpp", "include/ctre/functions.hpp", "include/ctre/literals.hpp", "include/ctll/fixed_string.hpp", "include/ctre/utf8.hpp"]}
{"id": "C62", "title": "What the compiler instantiates for a call: which patterns compile, and how many instantiations they need", "statement": "match, search and starts_with need the matcher overloads for their pattern and, transitively, all overloads named in the bodies of these. If all of them compile, no run on any subject reaches one that does not. match compiles if and only if search and starts_with compile. Without the greedy optimisation a pattern compiles exactly if every group and back reference (that is not inside of or behind a repetition with impossible bounds) refers to a group of the result type and no lookbehind contains a repetition, atomic group, group or back reference; with the optimisation, for patterns without a negated class inside of a class, exactly if moreover no mode switch can begin the content of, or the rest after, a greedy repetition; for other patterns these conditions are necessary. The number of different instantiations for all calls with a pattern is at most 8n+7 for n nodes of the tree, and at most 16m+15 for an accepted text of m characters. A pattern may fail to compile although the construct is never reached for any call that is made.", "quantifier": "for every pattern, every configuration, every subject, every start position; for every accepted pattern text", "why_tests_cant": "A pattern that does not compile cannot be in a test suite, and no test sees all patterns; the bound is about all patterns.", "anchors": ["include/ctre/evaluation.hpp", "include/ctre/first.hpp", "include/ctre/find_captures.hpp", "include/ctre/return_type.hpp", "include/ctre/wrapper.hpp"]}
{"id": "C63", "title": "The set of intervals behind the first-character analysis: storage, order and exactness", "statement": "Two lists of character classes are compared by writing the intervals of the first into a fixed-size array whose size is computed beforehand, and by looking up the intervals of the second. For all lists, no read or write is outside of the array; the elements in use are sorted and at most as many as computed; insertion keeps all elements, adds the new one and keeps the order; the answer is that of a comparison of sets. If both lists have only classes that list characters and ranges, or complements of such classes with the members in ascending order, there is an answer and it is exact: a collision is reported if and only if some character belongs to both. Refuted beyond that: the members of a complement in another order give a collision where there is none, and the answer is not symmetric.", "quantifier": "for every pair of lists of character classes, every sorted array, every interval", "why_tests_cant": "The computation happens inside the compiler for each pattern; a test covers the classes written in it, and an overlong array write would be a compile error only for the pattern that causes it.", "anchors": ["include/ctre/first.hpp: point_set, insert_point, lower_bound, calculate_size_of_first, populate, check, collides"]}
{"id": "C64", "title": "Matching takes polynomial time in the length of the subject", "statement": "Count the calls of the matcher, the loop iterations and the characters compared. For every pattern in which each iteration of an unlimited repetition consumes something, the work of match and of starts_with is at most a constant times (length + 1) to a power, and that of search at most a constant times one power more; the constant depends on the pattern and the compile-time configuration only. The exponent is computed from the pattern and is at most the number of unlimited repetitions and back references: nested repetitions such as (a+)+b do not take exponential time. An attempt takes a bounded number of steps if there are no unlimited repetitions and back references, and linear time if the unlimited repetitions are possessive and not nested. The exponents cannot be improved: for every d there is a pattern with d repetitions that takes at least k to the d steps on d*k characters, and search takes k to the d+1 steps on (d+1)*k characters.", "quantifier": "for every such pattern, every configuration and set of flags, every subject and position; for every d and k", "why_tests_cant": "A test measures particular subjects; catastrophic backtracking shows only for the right combination of pattern and subject.", "anchors": ["include/ctre/evaluation.hpp: evaluate and the loops of the repetitions; include/ctre/wrapper.hpp: match_method, search_method, starts_with_method"]}
{"id": "C65", "title": "The nesting of calls is linear in the subject and constant for most patterns", "statement": "match, starts_with and search nest calls of the matcher at most as deep as the size of the pattern (with the finite upper bounds of repetitions) plus the number of characters from the start of the attempt to the end of the subject, for every pattern in which each iteration of an unlimited repetition consumes something. If the unlimited repetitions are lazy or possessive, or greedy with first characters that are disjoint from those of what follows (so that the greedy optimisation applies), the depth is bounded by the size of the pattern whatever the subject is. The linear depth cannot be avoided otherwise: a*a nests at least N calls on N letters, so that long subjects exhaust the stack.", "quantifier": "for every such pattern, every configuration and set of flags, every subject and position; for every N", "why_tests_cant": "Stack exhaustion shows only for subjects longer than those of a test suite, and depends on the pattern.", "anchors": ["include/ctre/evaluation.hpp: evaluate, evaluate_recursive; include/ctre/wrapper.hpp: match_method, search_method, starts_with_method"]}
{"id": "C66", "title": "cp_numeric_value gives the numeric value of every code point", "statement": "uni::cp_numeric_value(c) is valid exactly for the code points that have a numeric value in Unicode 14.0, and numerator() / denominator() is this value, with a positive denominator; value() is the double nearest to it, and NaN if there is none; no argument, code point or not, makes it read outside of its tables. The code points matched by \\p{Nd} come in tens: each has an integer value k from 0 to 9 and is number k of ten consecutive decimal digits with the values 0 to 9. Every code point matched by \\p{N} has a value.", "quantifier": "for every value of char32_t", "why_tests_cant": "1114112 code points, 1872 of them with values spread over five tables that are searched one after the other.", "anchors": ["include/unicode-db/unicode-db.hpp: cp_numeric_value, numeric_value, get_numeric_value, compact_list, numeric_data8, numeric_data16, numeric_data32, numeric_data64, numeric_data_d"]}
{"id": "C67", "title": "The look-up functions of the Unicode database give the properties of Unicode 14.0", "statement": "For every code point, uni::cp_category is its general category (except for fifteen dashes, the hyphen among them, which are reported as unassigned), uni::cp_script its script or script::unknown, uni::cp_block its block or block::no_block, uni::cp_age the version in which it was assigned, or version::unassigned, with versions ordered by time; a loop over uni::cp_script_extensions ends and visits every script extension exactly once. Names are compared without regard to case and underscores; the aliases that C53 lists as missing are missing here as well. Values that are no code point are unassigned and have neither script, script extensions nor age, but the block of the last code points. None of the functions reads outside of its tables for any argument. The two increment operators of the script extension iterator give each other's results.", "quantifier": "for every value of char32_t, every category, script, block and version, and every spelling of their names", "why_tests_cant": "1114112 code points in several thousand table rows; wrong rows show only for the code points in them.", "anchors": ["include/unicode-db/unicode-db.hpp: cp_category, category_from_string, cp_script, script_from_string, cp_script_extensions, script_extensions_view, cp_block, block_from_string, cp_age, age_from_string"]}
{"id": "C68", "title": "A loop over all results takes no more work than a single search may take", "statement": "Count work as in C64. A loop over search_all or split takes at most one attempt to match for every position of the subject and every result, and a loop over tokenize one for every token and one more. If the pattern matches nothing empty (and, for split, does not begin with an anchor), there are at most as many results as characters (for split: one more), and the whole loop over search_all or split stays below a constant times (length + 1) to the exponent of a single search, the loop over tokenize below one power more than starts_with. With empty matches there is no bound: search_all<\"a*\">(\"b\") goes on for ever.", "quantifier": "for every pattern in which each iteration of an unlimited repetition consumes something, every configuration and set of flags, every subject and number of increments", "why_tests_cant": "Quadratic loops over the results of a linear search show only on large subjects.", "anchors": ["include/ctre/iterators.hpp: regex_iterator, regex_split_iterator; include/ctre/wrapper.hpp: search_method, starts_with_method; include/ctre/evaluation.hpp: evaluate"]}
{"id": "C69", "title": "Output and structured bindings give the text and the groups", "statement": "stream << x writes exactly the text of x, for every result and every capture that took part in the match (and does not begin at the end of the subject, where &*begin is undefined except with MSVC); for captures that did not take part and for failed calls it is undefined. auto [x0, x1, ...] = result has one element for the whole match and one for every group of the pattern text, in the order of the opening parentheses, equal to get<0>, get<1>, ..., provided that no group is inside of an atomic group or a lookbehind; with (?>(a))(b) the binding does not compile.", "quantifier": "for every accepted pattern text, every subject, and every result of match, starts_with and search", "why_tests_cant": "All patterns and subjects; unmatched captures are rarely written in tests.", "anchors": ["include/ctre/return_type.hpp: operator<<, get, count, std::tuple_size, std::tuple_element"]}
{"id": "C70", "title": "The parser decides every text in one round per character, and the test literals tell what it decided", "statement": "The parser works in rounds that each read at most one character; the number of rounds it is given, one more than the length of the text, always suffices for a decision, whatever the actions are. \"...\"_ctre_test is true exactly for the texts that the grammar file derives; \"...\"_ctre_syntax exactly for those whose actions succeed as well; \"...\"_ctre_gen compiles exactly for the same texts and is a list of exactly one element, the pattern that \"...\"_ctre and the functions use. False for texts such as (?im)a, for which the list has two elements and the second is lost.", "quantifier": "for every text, and for the first part every set of actions", "why_tests_cant": "The set of texts is infinite; the tests check single texts.", "anchors": ["include/ctll/parser.hpp: decide, move, results, trampoline_decide, output, correct_with", "include/ctll/actions.hpp", "include/ctre/literals.hpp: test_literals"]}
{"id": "C71", "title": "UTF-8 subjects that may be malformed are read in one defined way", "statement": "Every sequence of bytes has one reading: where a form of one to four bytes stands (a leading byte and the announced number of continuation bytes, whether it is the shortest form or not) the iterator gives its value and moves over it; elsewhere it gives U+FFFD and moves by the number of bytes the first byte announces. Iteration over arbitrary bytes reads nothing outside the buffer, ends after at most as many steps as there are bytes and gives the values of the reading; every call with a pattern that never looks back (no word boundary, lookbehind, back reference or begin-of-line assertion) gives on such bytes the result for the sequence of these values, with indices replaced by offsets. A text is well-formed UTF-8 exactly if its reading has no substitutions and consists of scalar values in their shortest forms. The reading is laxer than the standard: overlong forms (C0 AF is found as /), surrogates and values above U+10FFFF are accepted, an ill-formed sequence swallows bytes of the next character (the A of C3 41 is not found), and the end of a match at a truncated sequence lies outside the buffer.", "quantifier": "for every sequence of bytes, every method, every pattern that only moves forward and every mode", "why_tests_cant": "The sequences of bytes are infinitely many and the existing tests use well-formed text.", "anchors": ["include/ctre/utf8.hpp: utf8_iterator", "include/ctre/wrapper.hpp: regular_expression"]}
{"id": "C72", "title": "UTF-8 iterators move by code points and compare consistently", "statement": "On a well-formed text, adding k to an iterator leads k code points forward and subtracting k leads k code points back, each undoing the other, and they read outside the buffer exactly if there are not that many code points; on arbitrary bytes adding moves by values of the reading. The postfix operators give the position before the step. == does not depend on the order of the operands nor on the language version; != is its negation, except before C++20 with a pointer on the left and an iterator on the right, where it is == (utf8.hpp:92-94). An iterator equals the sentinel exactly if nothing is left to be read; a pointer is compared with the sentinel by the zero it points to, which at the end of a buffer is a read outside.", "quantifier": "for every text, every position, every step and every pair of operands", "why_tests_cant": "The tests compare with the sentinel only and do not add or subtract.", "anchors": ["include/ctre/utf8.hpp: operator+, operator-, operator==, operator!="]}
{"id": "C73", "title": "Found text is matched again, in every context", "statement": "For patterns without anchors, word boundaries, lookarounds, atomic or possessive parts and with unambiguous loop bodies: the text that search, starts_with, search_all or tokenize reports is itself matched by match with the same pattern; a search that succeeds in a text succeeds in every text that contains it, and begins there not later; and no piece of split, unless it is empty, contains a separator. False for patterns with lookaheads, and for atomic groups even without them: (?>(?>aab|a)a|a)a finds aa in aabx but does not match aa.", "quantifier": "for every such pattern (back references, groups and inline modes included), every subject and context", "why_tests_cant": "These are relations between several calls on different subjects; tests check single calls.", "anchors": ["include/ctre/wrapper.hpp: exec_with_result_iterator, search", "include/ctre/iterators.hpp", "include/ctre/evaluation.hpp"]}
{"id": "C74", "title": "Which patterns the parser leaves undecided", "statement": "A pattern text in which none of seven features occurs is accepted or rejected; the parser cannot stop on it for lack of a semantic action (a compiler error other than the syntax check). The features are: (? with two mode letters; a group (?:...) followed by ?+; \\x{..} or \\u{..} with more than 32 bits; a named group that begins with a reference by name; [:name:] as the beginning of a range; \\p{name=value} with an unknown value; a mode group inside a lookbehind. Each of them has a text that is left undecided. On texts without them (and without the two features of C45) the accepted ones are exactly the texts of the documented syntax and all others are rejected with a position.", "quantifier": "for every pattern string over all code points", "why_tests_cant": "All strings; the features can stand anywhere in the text.", "anchors": ["include/ctll/parser.hpp", "include/ctre/pcre.hpp", "include/ctre/actions"]}
{"id": "C75", "title": "Which match is reported follows from the text of the pattern", "statement": "For an accepted pattern text, match, starts_with and search report the first way of matching in the order that is read off the written pattern: alternatives from left to right, greedy quantifiers prefer more iterations, lazy ones fewer, possessive quantifiers and atomic groups keep only the preferred way of their content, an iteration takes the first way that consumes something. The rewriting of the pattern while it is parsed (joining characters to strings, joining adjacent repetitions of the same content, simplifying nested optionals) does not change the reported match or its captures, except that ? and ?+ after (?:a??) are dropped. If whatever is repeated consumes something and matches in at most one way (or stands under a possessive quantifier with minimum at most 1), the first way is the one of the usual order, in which an iteration may try all the ways of its content; if nothing discards ways, the usual ways are all the matches. search reports the first position from which there is a way, if no repetition that may be skipped stands before an anchor.", "quantifier": "for every accepted pattern text within the limits of C31 whose repetitions notice empty iterations, every subject, every start position and every mode", "why_tests_cant": "All texts, subjects and capture positions; a different order only shows in the captures of ambiguous patterns.", "anchors": ["include/ctre/actions", "include/ctre/atoms.hpp", "include/ctre/evaluation.hpp", "include/ctre/wrapper.hpp"]}
{"id": "C76", "title": "The parser library parses every LL(1) grammar exactly", "statement": "ctll::parser with any grammar and any actions: overload resolution uses the best rule for the current symbol, rejects if no rule admits it and does not compile if rules are equally good. Whatever is accepted is derived by the grammar and the output is the result of the actions performed in the order of the derivation. For an LL(1) grammar every text of the language is accepted, has one derivation, and a rejected text is reported at the end of its longest beginning that can be continued to a text of the language. Without left recursion the parser ends on every text. With IgnoreUnknownActions missing actions are passed over. The pattern parser is the instance for the pattern grammar.", "quantifier": "for every grammar, every action class and subject, every input text", "why_tests_cant": "All grammars; tests use a handful of grammars and texts.", "anchors": ["include/ctll/parser.hpp", "include/ctll/grammars.hpp", "include/ctll/actions.hpp"]}
{"id": "C77", "title": "Operations on type lists", "statement": "size, empty, concat, push_front, pop_front, front, pop_and_get_front and rotate of ctll lists satisfy the laws of lists (rotate reverses). add_item appends a type unless a type of the list converts to it and is idempotent; remove_item removes every occurrence of exactly the type and keeps the others. For unrelated types exists_in is membership and remove_item undoes add_item; for convertible types exists_in and remove_item disagree.", "quantifier": "for all type lists, all types and every conversion relation", "why_tests_cant": "All lists; add_item, remove_item and exists_in are used by no test.", "anchors": ["include/ctll/list.hpp", "include/ctll/grammars.hpp"]}
{"id": "C78", "title": "Different spellings of a pattern give the same results", "statement": "If a part of a pattern is replaced, wherever it stands (in groups, lookarounds, repetitions), by another spelling of the same thing, match, starts_with and search report the same: both fail or both match the same range with the same groups. The spellings are: characters and sets written differently (a and \\x61, [0-9] and \\d, [^\\d] and \\D, order and duplicates in sets, [ab] and (?:a|b)), redundant (?:...), repeated alternatives, factoring (?:x|y)z = xz|yz and, if z has one way, z(?:x|y) = zx|zy, x* = x{0,}, x{3} = x{3,3}, x+ = x{1}x*, x{3,5} = x{3}x{0,2}, x*x* = x*, x++ = (?>x+), (?:x?)* = x*, and, for x that consumes something in at most one way and sets no mode, x{1} = x, x? = (?:x|), x?? = (?:|x); \\b, \\A and \\z by lookarounds. Without these conditions x? and (?:x|), x{1} and x, x*+ and (?>x*) differ.", "quantifier": "for all pattern texts within the limits of C75 related by any number of such replacements, all subjects, flags and start positions", "why_tests_cant": "All pairs of patterns and all contexts of the replacement.", "anchors": ["include/ctre/evaluation.hpp", "include/ctre/actions/repeat.inc.hpp", "include/ctre/actions/sequence.inc.hpp", "include/ctre/actions/set.inc.hpp"]}
{"id": "C79", "title": "Matching decides the regular language written in the pattern", "statement": "For a pattern text made of characters, classes, sets, dots, capturing and other groups, alternatives, and greedy or lazy quantifiers, in which whatever is repeated consumes something and matches in at most one way, match returns and succeeds exactly if the subject is a word of the formal language of the text (union for |, concatenation, powers for quantifiers); starts_with exactly if the subject begins with such a word; search exactly if it contains one. So each of the three is decided by a deterministic finite automaton that depends on the pattern and the modes only, and two texts with the same language succeed on the same subjects. With greedy repetition optimised (the default) the same holds if case is not ignored or the text is written in one case, characters of the pattern are below 2^31, ranges are in order and sets contain no complement inside a complement. Without the condition on repetitions a success still implies membership, but (?:a|ab)*c does not match abc.", "quantifier": "for all such pattern texts, all subjects of any length, and all mode flags", "why_tests_cant": "Languages and subjects are infinite; the automaton needs a closure proof for all expressions.", "anchors": ["include/ctre/evaluation.hpp", "include/ctre/first.hpp", "include/ctre/actions/repeat.inc.hpp", "include/ctre/actions/sequence.inc.hpp"]}
{"id": "C80", "title": "search_all, split and tokenize follow from the text of the pattern", "statement": "If no match of the pattern is empty and it contains neither ^ nor \\A, search_all yields, from left to right, the matches preferred according to the pattern text (each begins at the first position at or after the end of the previous one where the text has a match, with the groups of the preferred way), split yields exactly the stretches between them, and tokenize the matches that follow each other from the beginning without a gap; all three end after their last result. The lists are unique. For texts as in C79, everything found is a word of the language, every place where a word begins is covered by a result of search_all, no piece of split contains a word, and tokenize reaches the end only if the subject is a concatenation of words. With empty matches search_all need not end: a* on b.", "quantifier": "for all pattern texts within the limits of C75 (or C79 in the default build), all subjects of any length, and all mode flags", "why_tests_cant": "All patterns and subjects, and completeness of the iteration.", "anchors": ["include/ctre/iterators.hpp", "include/ctre/range.hpp", "include/ctre/wrapper.hpp", "include/ctre/evaluation.hpp"]}
{"id": "C81", "title": "From the call as it is written to its answer", "statement": "A pattern as in C79 (default build), written as a char (ASCII), char8_t, char16_t or char32_t literal, applied to a view, a zero-terminated string or a UTF-8 string holding given code points: the call compiles and returns; match, starts_with and search succeed exactly if the code points are a word of the language of the pattern text, begin with one, or contain one; search_all, split and tokenize (if the empty text is no word) yield exactly the matches from left to right, the stretches between them, and the adjacent matches from the beginning, at the positions where these code points are in the subject (byte offsets for UTF-8), and then end. The bytes between two reported offsets are the encoding of the code points matched.", "quantifier": "for all such pattern texts of Unicode scalar values, all four kinds of literals, three kinds of subjects of any length and content (scalar values), and all modifiers (case_insensitive for pattern texts written in one case)", "why_tests_cant": "The whole chain from literal to answer for all texts and subjects.", "anchors": ["include/ctre/wrapper.hpp", "include/ctll/fixed_string.hpp", "include/ctre/pcre_actions.hpp", "include/ctre/utf8.hpp", "include/ctre/evaluation.hpp", "include/ctre/iterators.hpp"]}
{"id": "C82", "title": "Flags and modes matter only for patterns that contain what they are about", "statement": "If no character written in the pattern is an ASCII letter and every set contains each ASCII letter in both cases or in none ([:^lower:] and [:^upper:] aside), match, starts_with and search give the same result with and without case_insensitive, and (?i) or (?c) at the beginning has no effect; Unicode properties, \\w, \\b and the other classes never depend on the case. If the pattern contains no dot, ^, $ or \\Z, the results are the same with and without multiline. So for such regular patterns ignoring case is safe with the greedy optimisation that is on by default. Each of the excluded constructs makes a difference for some subject.", "quantifier": "for all such pattern texts, all configurations, all subjects and start positions, and all flags", "why_tests_cant": "Independence of a flag is about all subjects, and the conditions are about all patterns.", "anchors": ["include/ctre/atoms_characters.hpp", "include/ctre/evaluation.hpp", "include/ctre/flags_and_modes.hpp", "include/ctre/starts_with_anchor.hpp", "include/ctre/wrapper.hpp"]}
{"id": "C83", "title": "The default build reports the match that is prescribed by the pattern text", "statement": "With the default configuration, a call compiles and returns, whatever kind of literal the pattern is written in and however the subject is represented, and match, starts_with and search report, with the contents of all groups, the first of the ways of matching that the text of the pattern prescribes; search the one from the first possible position. If matches cannot be empty and ^ and \\A do not occur, search_all, split and tokenize yield the matches from left to right, what is between them, and the matches without a gap, and end. This holds for the whole syntax (groups, lookarounds, back references, anchors, lazy and possessive quantifiers, atomic groups) under conditions on the text: what is repeated has to consume something; after a greedy quantifier comes something that has to consume a character, or no \\b, ^ or \\A; case is not ignored, or the text is written in one case; $ and \\Z occur only without multiline; for search ^ and \\A do not occur in anything that a quantifier allows to be skipped, or every way begins with one; for UTF-8 subjects there is no back reference or lookbehind. Each of these conditions concerning greedy repetition and anchors is needed.", "quantifier": "for all such pattern texts, all literals and representations of subjects, all subjects, with and without the optimisation of greedy repetition", "why_tests_cant": "The optimisation replaces backtracking by an analysis of first characters; that it does no harm is a statement about all continuations.", "anchors": ["include/ctre/evaluation.hpp", "include/ctre/first.hpp", "include/ctre/starts_with_anchor.hpp", "include/ctre/wrapper.hpp", "include/ctre/iterators.hpp"]}
{"id": "C84", "title": "Found text, matched again, has the same groups", "statement": "With the default configuration, let a pattern contain no anchors, word boundaries, lookarounds, atomic groups or possessive quantifiers, and let what it repeats consume something and match in at most one way. If search or starts_with succeeds, or search_all or tokenize yields a match, then match on the found text alone (taken out of the subject and represented as a string view, a zero-terminated string or, without back references, as UTF-8) succeeds and captures the same groups at the same places of the found text. What is found in a text is found, not later, in every text that contains it; and search finds nothing in a piece that split yields, if matches cannot be empty. Each of the conditions is needed: a lookahead or an atomic group can make match fail on the found text, a repeated alternative can change the groups.", "quantifier": "for all such pattern texts, all literals and representations of subjects, all subjects and all parts of subjects", "why_tests_cant": "A test compares two calls for one pattern and one subject; the claim relates the preferred match in a text to that in all of its parts.", "anchors": ["include/ctre/evaluation.hpp", "include/ctre/wrapper.hpp", "include/ctre/iterators.hpp", "include/ctre/return_type.hpp"]}
{"id": "C85", "title": "Calls succeed exactly when the meaning of the pattern text says so", "statement": "With the default configuration, let a pattern (which may contain back references, lookarounds, anchors and word boundaries) meet the conditions of C83 and have no atomic groups and no possessive quantifiers, and let what it repeats consume something and match in at most one way. Then every call returns: match succeeds exactly if the documented meaning of the pattern text allows it to match the whole subject, starts_with exactly if it allows a match from the beginning, search exactly if it allows a match from some place, and it reports a match from the first such place; the reported groups are those of a match that the meaning allows. For example (a*)b\\1 matches exactly the subjects of k letters a, a b, and k letters a again. No pattern made only of literals, sets, concatenation, alternation and repetition has the same matches as that one: long subjects that such a pattern matches contain a part that can be repeated.", "quantifier": "for all such pattern texts, all literals and representations of subjects, all subjects; for the last claim all patterns of the regular syntax", "why_tests_cant": "Tests show that some subjects match and others do not. The claim covers all subjects and, for the failing calls, says that there is no way to match at all; that no pattern of a class has certain matches cannot be tested.", "anchors": ["include/ctre/evaluation.hpp", "include/ctre/wrapper.hpp", "include/ctre/first.hpp", "include/ctre/starts_with_anchor.hpp"]}
{"id": "C86", "title": "Which loops over results end, and what they yield if matches may be empty", "statement": "With the default configuration and for patterns within the limits of C83: the range returned by search_all yields the matches preferred according to the pattern text from left to right, each found at or after the end of the previous one. If the match found is empty and lies before the end of the subject, the range yields this same match for ever and never compares equal to its end; otherwise it ends after a match that reaches the end of the subject, or when there is no further match, and stays at its end if incremented again. The same holds for tokenize, with matches that follow each other without a gap. A range returned by split does not end if an empty match is found anywhere, also at the end of the subject: it yields empty pieces for ever; otherwise it yields the stretches between the matches and ends. So a loop over search_all or tokenize is safe if no preferred match before the end of the subject is empty (there are at most as many results as characters, or one), and a loop over split with a pattern that can match the empty text at the end of the subject, such as a*, never ends, whatever the subject is. For patterns in which every alternative begins with ^ or \\A (outside of named groups; ^ with multiline mode off) search_all and tokenize behave as described, but all pieces of split are empty and the rest of the subject is never part of a piece: the range yields an empty piece for ever, at the end of the match at the beginning or at the beginning itself, unless that match is not empty and reaches the end of the subject (then there are two empty pieces) or the subject is empty and does not match (one empty piece). So a loop over split<\"^a\"> ends only for the subjects \"\" and \"a\".", "quantifier": "for all such pattern texts, all literals and representations of subjects, all subjects of any length, all numbers of increments", "why_tests_cant": "That a loop never ends cannot be observed by a test, and that all others end is a statement about all patterns and subjects.", "anchors": ["include/ctre/iterators.hpp", "include/ctre/range.hpp", "include/ctre/wrapper.hpp"]}
{"id": "C87", "title": "Ignoring case means bringing the subject into the case of the pattern", "statement": "If all letters of a pattern are written in lower case (or all in upper case), and it contains no back reference, Unicode property or (?c), then every function of the interface gives, with case_insensitive, exactly the answer (results, groups, positions, sequences of results) that it gives on the subject with its ASCII letters brought into that case; there it does not matter whether case is ignored. Sets have to contain a letter with case ignored exactly if they contain it in that case without: so [a-z_0-9], [^a-f] and \\w are fine, [Y-b] and [[:upper:]] are not. Byte offsets in UTF-8 subjects are the same. So subjects that differ in case only are treated alike, and match of a pattern as in C79 succeeds exactly if the subject in the case of the pattern is a word of its language, with the greedy optimisation that is on by default. False for mixed patterns (aA), back references ((a)\\1 does not match aA), (?c), and [Y-b].", "quantifier": "for all such pattern texts, literals of all kinds, subjects of any length and content, functions of the interface, and other modifiers", "why_tests_cant": "All patterns and subjects; a test compares single pairs.", "anchors": ["include/ctre/atoms_characters.hpp", "include/ctre/evaluation.hpp", "include/ctre/flags_and_modes.hpp", "include/ctre/first.hpp", "include/ctre/wrapper.hpp"]}
{"id": "C88", "title": "What the default build does: greedy repetitions that cannot begin like what follows them are possessive", "statement": "In the default build (CTRE_DISABLE_GREEDY_OPT not defined), for every pattern that compiles, all modes and all subjects, match and starts_with return exactly what the build without the optimisation returns for the pattern in which each greedy repetition whose first characters are disjoint from those of what follows it (according to the library's analysis) is possessive, and nothing else is changed. So they report the first of the ways of matching that pattern; search reports the first way from the first position that has one. If another pattern text has that tree, then the ways are those prescribed by that text: [a ]*\\b is matched as [a ]*+\\b is written. If every greedy repetition may begin like what follows it, the optimisation does nothing. In contrast to C34 and C83 there is no condition on the pattern besides those for both builds. For search the two calls give the same result if both patterns are treated as anchored or both are not; (?:\\Aa)?b and (?:\\Aa)?+b are not.", "quantifier": "for all patterns that compile, subjects of any length and content, modes, start positions; for the ways: patterns as in C46 or pattern texts as in C75", "why_tests_cant": "All patterns and subjects; a test sees one pattern on one subject in one build.", "anchors": ["include/ctre/evaluation.hpp", "include/ctre/first.hpp", "include/ctre/wrapper.hpp", "include/ctre/starts_with_anchor.hpp"]}
{"id": "C89", "title": "Characters that the pattern does not tell apart can be exchanged in the subject", "statement": "Two characters are not told apart by a pattern text if every character, class and set written in it contains both or neither, whether or not case is ignored, and they agree in being newlines (if ., ^, $ or \\Z occurs) and word characters (if \\b or \\B occurs). For two subjects of the same length whose characters at each position are not told apart, every function of the interface gives the same answer with the same positions, for all flags, all kinds of literals and both builds; with back references it is needed, and enough, that in addition the same pairs of characters are equal in both subjects. The same holds for zero-terminated subjects, and for UTF-8 text if the exchanged characters take equally many bytes. A pattern without Unicode properties does not tell apart code points from 128 on that are greater than every code point it mentions; so, without back references, each of them can be replaced by the first one that is not mentioned, and two such patterns that give the same answers on all subjects over the finitely many characters up to that one give the same answers on all subjects.", "quantifier": "for all pattern texts of the concrete syntax that mean what they say, all pairs of subjects as stated, all functions, flags, literals, start positions", "why_tests_cant": "All pairs of subjects and all patterns; this property is what would justify testing a pattern with few characters.", "anchors": ["include/ctre/evaluation.hpp", "include/ctre/atoms_characters.hpp", "include/ctre/wrapper.hpp", "include/ctre/range.hpp", "include/ctre/utf8.hpp"]}
{"id": "C90", "title": "Patterns joined by | and >> give the results of the text (?:a)|(?:b) and (?:a)(?:b)", "statement": "Two pattern objects can be joined by the operators | and >>, again and again. If at most one of the joined patterns contains capturing groups, the object built in this way gives exactly the result of the pattern text in which every a | b is written (?:a)|(?:b) and every a >> b is written (?:a)(?:b): match, starts_with and search succeed on the same subjects and report the same positions, for the whole match and for every group; and this result is the first way, in the order of preference of the text, of matching. If two joined patterns contain groups or back references this is false: in (a) >> (b)\\1 the reference means the second group, in (?:(a))(?:(b)\\1) the first.", "quantifier": "for all pattern texts of the concrete syntax that mean what they say, joined by the operators in any way and number, all subjects, flags and start positions; for search, without ^ and \\A", "why_tests_cant": "All expressions over all patterns and all subjects; the tests only join a few fixed patterns and only look at whether they match.", "anchors": ["include/ctre/operators.hpp", "include/ctre/evaluation.hpp", "include/ctre/wrapper.hpp"]}
{"id": "C91", "title": "Which groups capture, and what they are called, only matters for what can be asked of the result", "statement": "Take two pattern texts that differ only in their groups: a group ( ) or (?<name> ) of one may be non-capturing in the other, may have another number or another name, and back references are written accordingly (\\1, \\g{1}, \\g{-1} or \\g{name}), each to the partner of the group the other one refers to. Then every function of the interface gives the same answer for both: match, starts_with and search succeed on the same subjects with the same stretch, search_all, tokenize and split give the same sequence of stretches and end at the same place, and groups that are partners have captured the same or have both captured nothing. This needs that both texts mean what they say: a*+(a++)b does not match ab, but a*+(?:a++)b does.", "quantifier": "for all pairs of pattern texts as described, all one-to-one relations between their groups, all subjects, representations of subjects, literals, flags and builds", "why_tests_cant": "All pairs of patterns and all subjects; the tests contain single patterns only.", "anchors": ["include/ctre/evaluation.hpp", "include/ctre/find_captures.hpp", "include/ctre/return_type.hpp", "include/ctre/actions/capture.inc.hpp", "include/ctre/actions/sequence.inc.hpp"]}
{"id": "C92", "title": "match, starts_with and search can be expressed by each other", "statement": "For every accepted pattern P, apart from texts that contain (? with two mode letters as in (?im) or contain )?+, match of P is starts_with of (?:P)\\z and search for \\A(?:P)\\z, and starts_with of P is search for \\A(?:P); on every subject the one call returns the same result as the other one (the same stretch and the same captures, or failure), in every build. ^(?:P)$ does instead of \\A(?:P)\\z if multiline mode is off and P does not contain (?m); otherwise it does not: (?m)a does not match \"a\\nb\", but ^(?:(?m)a)$ is found in it. The other way round, if P means what it says (the conditions of C75, and those of C83 with the optimisation of greedy repetitions), starts_with of P succeeds where match of (?:P)[^]* does and search for P where match of [^]*?(?:P)[^]* does, and all the groups have captured the same, whatever kind of literal the patterns are written in and however the subject is represented.", "quantifier": "for all accepted patterns, all subjects, flags, starting positions and builds", "why_tests_cant": "All patterns and all subjects; the tests contain single patterns only, and never compare two of the functions.", "anchors": ["include/ctre/wrapper.hpp", "include/ctre/evaluation.hpp", "include/ctre/starts_with_anchor.hpp", "include/ctre/actions/asserts.inc.hpp"]}
{"id": "C93", "title": "The order of alternatives, and greedy or lazy, matter for what is found, not for whether something is found", "statement": "Take two patterns that meet the conditions of C83, without atomic groups and possessive quantifiers, in which what is repeated consumes something and matches in at most one way, that differ only in the order of their alternatives (anywhere in the pattern), in alternatives that are written twice, and in which of the repetitions are greedy or lazy. Then match, starts_with and search succeed for both on the same subjects, and search finds matches that begin at the same place, in the default build and without the optimisation of greedy repetitions. What they end with, and what the groups capture, may differ. The conditions are needed: (?:a|ab)*c does not match abc, but (?:ab|a)*c does, and neither does (?>a|ab)c, but (?>ab|a)c does.", "quantifier": "for all such pairs of patterns (with back references, lookarounds, anchors and modes), all subjects, literals, representations of subjects, flags and builds", "why_tests_cant": "All pairs of patterns and all subjects; the tests contain single patterns only.", "anchors": ["include/ctre/evaluation.hpp", "include/ctre/first.hpp", "include/ctre/wrapper.hpp", "include/ctre/actions/options.inc.hpp", "include/ctre/actions/repeat.inc.hpp"]}
{"id": "C94", "title": "A pattern that allows more succeeds wherever the narrower one does", "statement": "Take two patterns that meet the conditions of C83, without atomic groups and possessive quantifiers, in which what is repeated consumes something and matches in at most one way, the second of which allows more than the first: it may have further alternatives anywhere, character sets that contain those of the first, wider counts, fewer assertions (^, $, \\A, \\z, \\Z, \\b, \\B, negative lookaheads, lookbehinds), and inside of negative lookarounds the reverse. Then whenever match, starts_with or search succeeds with the first pattern it succeeds with the second one, and search finds a match that does not begin later, in the default build and without the optimisation of greedy repetitions. The conditions are needed: on ab, (?:a)*b and (?>a)b match, but (?:ab|a)*b and (?>ab|a)b do not; on aa, (?:a)?+a matches, but (?:a)*+a does not; and ignoring case the larger range [_-c] does not contain all that [a-c] contains.", "quantifier": "for all such pairs of patterns (with the same groups, with back references, lookarounds, anchors and modes), all subjects, literals, representations of subjects, flags and builds", "why_tests_cant": "All pairs of patterns and all subjects; the tests contain single patterns only.", "anchors": ["include/ctre/evaluation.hpp", "include/ctre/first.hpp", "include/ctre/wrapper.hpp", "include/ctre/actions/options.inc.hpp", "include/ctre/actions/set.inc.hpp"]}
{"id": "C95", "title": "Lookaheads combine patterns like and, and not", "statement": "Let P be a pattern without groups and back references, and Q any pattern, such that (?=P)(?:Q) meets the conditions of C83. match and starts_with with (?=P)(?:Q) succeed exactly if starts_with with P and the same call with Q do, with (?!P)(?:Q) exactly if starts_with with P fails and the call with Q succeeds, and then report what is reported with Q, for the whole match and every group. search finds the first position from which Q matches and P does or, with (?!, does not. For whole subjects: match with (?=(?:P)\\z)(?:Q) succeeds exactly if match with P and match with Q do, match with (?!(?:P)\\z)(?:Q) exactly if match with Q does and match with P does not, and match with (?!(?:P)\\z)(?:[^]*) exactly if match with P fails. If P has groups this is false: (a)\\1 and (?=a)(?:(a)\\1) match aa, but (?=(aa))(?:(a)\\1) does not, since \\1 is another group.", "quantifier": "for all such patterns P and Q, all subjects, literals, representations of subjects, flags and builds", "why_tests_cant": "All pairs of patterns and all subjects; the tests contain a few fixed lookaheads.", "anchors": ["include/ctre/evaluation.hpp", "include/ctre/wrapper.hpp", "include/ctre/first.hpp", "include/ctre/actions/look.inc.hpp"]}
{"id": "C96", "title": "A pipeline from a range of subjects keeps exactly the subjects that the pattern describes", "statement": "For patterns within the limits of C83 and a range of subjects (strings, zero-terminated strings, or UTF-8 for patterns that only look forward): a loop over subjects | ctre::match<...>, subjects | ctre::starts_with<...> or subjects | ctre::search<...> visits, in the order of the subjects, for each subject that has a match of that kind according to the text of the pattern, the result that reports the preferred match with its groups, and nothing for the others; then it ends. If the pattern contains nothing that keeps to its first choice (the limits of C85), the subjects kept are exactly those for which the meaning of the text allows such a match. For example strings | ctre::match<\"(a*)b\\\\1\"> yields as many results as there are strings of the form aa...abaa...a with as many a before as after the b.", "quantifier": "for all such pattern texts and literals, all lists of subjects of any length, all subjects, flags and builds", "why_tests_cant": "All patterns and lists of subjects; tests run a pipeline over one fixed list.", "anchors": ["include/ctre/range.hpp", "include/ctre/wrapper.hpp", "include/ctre/evaluation.hpp"]}
