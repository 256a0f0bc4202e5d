# Formal model of CTRE (compile-time regular expressions)

Source: `/repo` (read as text; it was neither built nor run). Model, specifications and proofs: Lean 4, `/verif/lean`.

Contents: 1 trusted base, 2 what is modelled and what is not, 3 conventions and simplifications, 4 specifications,
5 how the proofs are organised, 6 each property, 7 defects found, 8 tests of the theorems.

## 1. Trusted base

* The Lean 4.33.0 kernel, and the Mathlib modules that are imported (each file imports single modules).
* Axioms: every theorem named in `MANIFEST.json` depends on at most `propext`, `Classical.choice` and `Quot.sound`
  (`#print axioms`; checked for all of them). There is no axiom of our own, no `sorry`, no `native_decide`, no
  `bv_decide`, no `implemented_by`. Finite tables are evaluated by `decide +kernel` or `rfl`.
* The hand translation of the C++ text into the definitions of `lean/Verif/Model`; every definition cites file and
  lines. Proofs say nothing about mistakes in this translation, about the C++ compiler, or about the standard library.
* The specifications in `lean/Verif/Spec` (section 4), which have to be read to know what is proved.

Not trusted, only checked: the translation was compared with the expectations written in `/repo/tests` (the tests were
evaluated in the model, see section 8).

## 2. What is modelled

| Part | Files in /repo/include | Model |
|---|---|---|
| character matchers, classes | ctre/atoms_characters.hpp | `Model/Chars.lean` |
| Unicode properties: dispatch, names, lookups | ctre/atoms_unicode.hpp, unicode-db/unicode-db.hpp | `Model/UniLookup.lean`, `Model/Unicode.lean` |
| Unicode properties: the tables | unicode-db/unicode-db.hpp | `Model/Uni{Cats,PropsA,PropsB,Ranges,Names,Enums}.lean` (generated from the header by a script, number by number) |
| pattern tree, marks | ctre/atoms.hpp | `Model/Atoms.lean` |
| flags and modes | ctre/flags_and_modes.hpp | `Model/Atoms.lean` |
| results and captures, comparison | ctre/return_type.hpp, ctre/find_captures.hpp | `Model/Results.lean` |
| access to captures, numbers; operators on patterns | ctre/return_type.hpp, ctre/operators.hpp | `Model/Access.lean` (`std::distance`, `std::from_chars` and the constructors of strings are written out there) |
| first sets, point sets, collides | ctre/first.hpp | `Model/First.lean`, `Model/PointSet.lean` (arrays) |
| evaluation machine, all overloads | ctre/evaluation.hpp | `Model/Eval.lean` |
| the same over an arbitrary iterator | ctre/evaluation.hpp, ctre/wrapper.hpp | `Model/Cursor.lean` |
| match, starts_with, search | ctre/wrapper.hpp, ctre/starts_with_anchor.hpp | `Model/Wrapper.lean` |
| search_all, split, tokenize, multi_subject_range | ctre/iterators.hpp, ctre/range.hpp | `Model/Iterators.lean` |
| UTF-8 iterator | ctre/utf8.hpp | `Model/Utf8.lean` |
| zero-terminated subjects | ctre/wrapper.hpp:17-58 | `Model/Cursor.lean` |
| pattern literals | ctll/fixed_string.hpp | `Model/FixedString.lean` |
| LL(1) table | ctre/pcre.hpp | `Model/Grammar.lean` (generated from the header by a script, one rule per overload) |
| parser machine | ctll/parser.hpp, ctll/list.hpp | `Model/Parser.lean` |
| semantic actions | ctre/actions/*.inc.hpp | `Model/Actions.lean` |
| lookbehind rotation | ctre/rotate.hpp | `Model/Rotate.lean` |
| function templates, `_ctre`, kinds of literals and subjects, pipe operators | ctre/wrapper.hpp, ctre/functions.hpp, ctre/literals.hpp, ctre/range.hpp | `Model/Api.lean` |
| which overloads of `evaluate` are instantiated | ctre/evaluation.hpp | `Model/Static.lean` |
| amount of work of an evaluation | ctre/evaluation.hpp, ctre/wrapper.hpp | `Model/Steps.lean` |
| amount of work of loops over results | ctre/iterators.hpp | `Model/IterSteps.lean` |
| look-up functions of the Unicode database | unicode-db/unicode-db.hpp:13-42, 60-64, 88, 7254-7380 | `Model/UniApi.lean` |
| numeric values of code points | unicode-db/unicode-db.hpp:44-58, 188-202, 375-391, 4493-5059, 7495-7521 | `Model/UniDouble`, `Model/UniNumeric.lean` |
| nesting of calls of an evaluation | ctre/evaluation.hpp, ctre/wrapper.hpp | `Model/Depth.lean` |
| parser with its rounds, test literals | ctll/parser.hpp, ctre/literals.hpp | `Model/Ll1.lean` |
| operators of the UTF-8 iterator | ctre/utf8.hpp | `Model/Utf8Iter.lean` |
| parser library for any grammar and actions | ctll/parser.hpp, ctll/grammars.hpp, ctll/actions.hpp, ctll/utilities.hpp | `Model/Ctll.lean` |
| operations on type lists | ctll/list.hpp, ctll/grammars.hpp | `Model/TypeList.lean` |
Not modelled:

* Of the Unicode database: the tables `prop_ce_data` and `prop_comp_ex_data`, which patterns
  do not use. The theorems about the engine hold for any meaning of the properties (`Cfg.uni`) and any table of names
  (`PropTable`); C47 to C54 are about the real ones (`Ucd.uni`, `Ucd.table`).
* Formatting flags of output streams, `_ctre_id` and comparison of `ctre::id` (no other code uses them).
* The template instantiation mechanism beyond C62: depth limits, compile time, and compile errors other than those recorded as the
  outcome `ill`.
* 16- and 32-bit code unit iterators other than as sequences of values; `wchar_t` of 16 bits.
* `std::input_iterator` subjects (single pass).

## 3. Conventions and simplifications

* A subject is a list of integers: the values of `*current` after integral promotion (so a signed `char` 0x80 is -128).
  A position is a natural number, `orig_begin` is 0, `last` is the length.
* Outcomes of `evaluate`: `timeout` (the fuel of the model is used up: the C++ call may still be running), `ub` (undefined
  behaviour: an iterator outside the subject or a null iterator is dereferenced), `ill` (the instantiation does not
  compile), `fail` (`not_matched`), `ok captures`. More fuel never changes a result other than `timeout`
  (`Lemmas/Mono.lean`), so "the result" is well defined; `Spec/Runs.lean` states it without fuel.
* `ill` is dynamic in `eval`: it is reported when evaluation reaches the offending node. In C++ ill-formedness is
  static, so C++ rejects a superset of these patterns; `Model/Static.lean` models what is instantiated (C62). Theorems saying that a call returns a result (C44) therefore have
  syntactic hypotheses that exclude the offending nodes everywhere in the pattern.
* Loop counters are natural numbers (C++: `size_t`; a subject with 2^64 characters does not exist).
* Loop bodies are evaluated by a recursive call with `end_cycle_mark` at the end of the stack, exactly as in the code; this
  is what makes loop bodies atomic (see C02, section 7).
* Lookbehind: C++ uses reverse iterators. `Eval` runs on the reversed subject with a flag that makes every use of
  captures `ill`; `Cursor` uses a reversed cursor, which for UTF-8 narrows the character to `char8_t` as
  `std::reverse_iterator` does in the standard libraries before C++20 (`Cfg.lib20 = false`); since C++20 it has the type
  of `*it` as `reference` and nothing is lost.
* In `Model/First.lean` the sorted arrays of `point_set` are lists of intervals in order of insertion; `Model/PointSet.lean`
  has the arrays, and C63 shows that the answers are the same. The intervals of a negative set are computed as in the code, unsorted members included.
* Character constants of patterns are natural numbers below 2^32; the comparison between `char` values and `char32_t`
  constants is modelled with its conversion to unsigned (`eqConst`).
* Parser actions given an item for which there is no overload are `ill`.  Generic overloads that would take
  parser-internal items (numbers, names) as pattern nodes are `ill` as well.
* `utf8_iterator`: forming a pointer beyond one past the end is not modelled as an error, reading is.
* Fuel arguments of the parser and of `utf8Collect` are shown to suffice (C28, C25).

## 4. Specifications

The specifications do not use the evaluation machine, the parser or the iterators.

* `Spec/Semantics.lean`: declarative meaning of pattern trees (`Re.Match`), by recursion over the tree, with captures and
  modes; `Spec/Report.lean`: what a result object says about such a match.
* `Spec/Surface.lean`: concrete syntax as trees (`Body`), how they are written (`print`), and what they mean
  (`Body.Match`), independent of grammar and parser.
* `Spec/Shapes`, `Unambiguous`, `Rigid`, `Anchored`, `Terminates`, `Caseless`, `Steady`, `Compiles`, `Static`, `FirstSets`: decidable
  or semantic conditions on patterns that occur as hypotheses.
* `Spec/TextLanguage`, `Spec/Scan`, `Spec/Calls`, `Spec/Indifferent`, `Spec/Robust`, `Spec/Respell`, `Spec/Within`, `Spec/Loops`, `Spec/Hooked`, `Spec/OneCase`, `Spec/Written`, `Spec/Recase`, `Spec/Sharpen`, `Spec/Blind`, `Spec/Combined`, `Spec/Regroup`, `Spec/Anchoring`, `Spec/Reorder`, `Spec/Widen`, `Spec/Letters`, `Spec/Conjoin`, `Spec/Numbers`: languages, iterations, calls, and classes of pattern texts.
* `Spec/Classes`, `Spec/Utf8`, `Spec/Literal`, `Spec/Cuts`, `Spec/Times`, `Spec/Assert`, `Spec/Behind`, `Spec/Cursor`,
  `Spec/Flat`, `Spec/Fusion`, `Spec/Spelling`, `Spec/Modes`, `Spec/Iterate`, `Spec/Api`: vocabulary of single properties (the documented
  sets of characters, the Unicode encoding forms, occurrences of text, cutting a text at separators, iteration counts, …).
* `Spec/PcreGram.lean`: the grammar file pcre.gram and its derivations (the tables of pcre.hpp, which are generated from it, are
  the model).
* `Spec/Ucd*.lean`: the properties of Unicode 14.0 as lists of ranges with their names. They do not come from /repo: the
  general categories come from the `unicodedata` module of Python (14.0.0), the rest from the tables of Perl 5.38 (15.0),
  restricted to the code points of 14.0; differences between 14.0 and 15.0 are noted in the files. `Spec/Properties.lean`:
  what it means that `\\p{w}` stands for a set of code points.

## 5. Organisation of the proofs

* `Lemmas/*.lean`: helper lemmas. `Props/*.lean`: the property theorems `Cnn_*`, each followed by a concrete case that meets
  its hypotheses. A suffix `_partial` marks a theorem that proves part of the property, `_fails_*` a proved counterexample
  to the unrestricted claim.
* The engine proofs are inductions on the fuel over arbitrary stacks: `Safe` (bounds), `SoundComplete` (relational meaning),
  `Swap`, `Flat`, `Caseless`, `Cursor` (simulations), `Terminates` (measure), `Compiles`, `GreedyOpt` (agreement of two
  configurations on steady patterns).
* The parser proofs are of two kinds: forward runs of the machine over the printed text of a tree (`ParseSteps` …
  `ParsePrint`), and invariants of arbitrary runs (`ParserFuel`, `Numbering`).

## 6. The properties

Full statements are in `properties.jsonl`; names are those of `MANIFEST.json`, without the prefix `Ctre.`.

### C01 Reported matches are real matches (soundness) — proved

Modelled: `Eval`, `Wrapper`. Induction on fuel: a successful run of a stack is a chain of relational steps (`Lemmas/Sem`, `LoopSem`, `SoundComplete`), which refines the declarative meaning (`Refine`). Negative lookaround is outside the statement.

Theorems (Props/Soundness.lean): `C01_match_sound`, `C01_starts_with_sound`, `C01_search_sound`.

### C02 No match is missed on patterns with unambiguous loop bodies (completeness) — proved

The other direction of the same induction, for unambiguous loops (`Unambiguous`, `Rigid` is a decidable sufficient condition). The restriction is necessary: counterexample proved.

Scope: For the configuration without the greedy-to-possessive optimisation; the fragment predicate is decidable and the counterexample outside it is proved.

Theorems (Props/Soundness.lean): `C02_match_complete`, `C02_starts_with_complete`, `C02_search_complete`, `C02_fragment`, `C02_fails_for_ambiguous_loop`.

### C03 match covers the whole subject — proved

From the invariant that `sEnd` only succeeds at the end; `C03_accepted` needs only that the parser accepted the text.

Theorems (Props/Accepted.lean, Props/Bounds.lean): `C03_accepted`, `C03_match_spans_subject`.

### C04 match implies starts_with implies search — proved

Exchange of the end of the stack (`Swap`): the run of `match` is a run of `starts_with` that ends at the end.

Theorems (Props/Accepted.lean, Props/Search.lean): `C04_accepted`, `C04_match_implies_starts_with`, `C04_starts_with_implies_search`.

### C05 search returns the leftmost match — proved

Induction over the loop of `searchLoop`.

Theorems (Props/Accepted.lean, Props/Search.lean): `C05_accepted`, `C05_search_leftmost`, `C05_search_failure`, `C05_search_iff`.

### C06 The anchored-pattern shortcut of search never loses a match — partial

Anchored patterns match only at the beginning when no skippable repetition precedes the anchor; the shortcut as coded also fires for `(?:^a)*b`, which is a proved counterexample. That part cannot be proved, hence partial.

Scope: The shortcut is sound when no starred or optional part precedes the anchor; C06_fails_for_skipped_anchor refutes the general claim.

Theorems (Props/Anchored.lean): `C06_anchored_matches_only_at_begin`, `C06_shortcut_partial`, `C06_search_failure_partial`, `C06_fails_for_skipped_anchor`.

### C07 Captures lie inside the subject — proved

Invariant of all runs (`Safe`).

Theorems (Props/Accepted.lean, Props/Bounds.lean): `C07_accepted`, `C07_captures_inside_match`, `C07_captures_inside_starts_with`, `C07_captures_inside_search`.

### C08 Matching never reads outside the subject — proved

Same invariant: the outcome `ub` is unreachable from positions inside the subject.

Theorems (Props/Accepted.lean, Props/Bounds.lean): `C08_accepted`, `C08_no_out_of_bounds`.

### C09 Matching terminates — proved

A measure on the rest of the subject and the pattern; loops make progress because of the not-empty demand. The demand is dropped by a greedy loop of minimum 0, which gives the proved divergence.

Scope: For the class of patterns named in the statement; C09_diverges is the counterexample outside it.

Theorems (Props/Terminates.lean): `C09_terminates`, `C09_defined`, `C09_diverges`.

### C10 Alternation is ordered — proved

Fuel-free equations for `sel`.

Theorems (Props/Control.lean): `C10_alternation_ordered`, `C10_first_alternative`.

### C11 Greedy takes the most, lazy the fewest, possessive all iterations — proved

Induction over the loops for a single-character body (`Single`).

Theorems (Props/Loops.lean): `C11_greedy_most`, `C11_lazy_fewest`, `C11_possessive_all`.

### C12 Repetition counts are respected — proved

Loops as iterated relations (`Times`).

Scope: The zero upper bound defect is proved as C12_fails_for_zero_bound.

Theorems (Props/Control.lean): `C12_repetition_count`, `C12_contradictory_bounds`, `C12_fails_for_zero_bound`.

### C13 Atomic groups and possessive repetition do not backtrack — proved

The possessive loop is a function of position and captures only; the tail is evaluated once.

Theorems (Props/Control.lean): `C13_possessive_no_backtrack`, `C13_atomic_no_backtrack`, `C13_atomic_first_way`, `C13_atomic_fails`.

### C14 Lookahead is zero-width — proved

Fuel-free equations for lookaheads in terms of runs of the content.

Theorems (Props/Control.lean): `C14_lookahead_matches`, `C14_lookahead_fails`, `C14_negative_matches`, `C14_negative_fails`.

### C15 Lookbehind inspects the text before the position — proved

Reversal of subject and pattern (`Rotate`, `Behind`), for the contents that compile and contain no anchors.

Scope: for contents built from characters, classes, strings, boundaries, concatenation and alternation; repetitions, captures and back references inside a lookbehind do not compile; for anchors the claim is false (C15_fails_for_anchors)

Theorems (Props/Behind.lean): `C15_positive`, `C15_negative`, `C15_translated`, `C15_fails_for_anchors`.

### C16 Backreferences repeat the captured text — proved

Characterisation of `match_against_range` as equality of texts.

Theorems (Props/Anchors.lean): `C16_backreference`, `C16_named_backreference`, `C16_unset_group`, `C16_unset_named_group`, `C16_ignores_case_insensitive`.

### C17 Anchors — proved

Characterisation of `testAt`.

Theorems (Props/Anchors.lean): `C17_subject_begin`, `C17_subject_end`, `C17_subject_end_line`, `C17_line_begin`, `C17_line_end`, `C17_dot`.

### C18 Word boundaries — proved

`\b` is characterised; what the parser builds for `\B` is a boundary of the complement, shown to be `\b` inside the subject.

Scope: \b proved; the \B defect is proved as C18_fails_*.

Theorems (Props/Anchors.lean): `C18_word_boundary`, `C18_not_boundary_meaning`, `C18_fails_not_boundary_equals_boundary`, `C18_fails_on_empty_subject`, `C18_not_boundary_node`.

### C19 Case-insensitive matching ignores ASCII case — proved

Simulation between runs on two subjects that differ in letter case.

Scope: The conditions on ranges and back references are shown necessary by C19_fails_*.

Theorems (Props/Caseless.lean): `C19_case_insensitive_results`, `C19_character`, `C19_fails_for_mixed_range`, `C19_fails_for_back_reference`.

### C20 Character classes denote the documented sets — proved

From the pattern text through the parser: the class denotes the documented set for every integer character.

Theorems (Props/Classes.lean): `C20_digit`, `C20_non_digit`, `C20_word`, `C20_non_word`, `C20_space`, `C20_non_space`, … (57 theorems).

### C21 search_all yields ordered, non-overlapping leftmost matches and ends — proved

Iterator states against the sequence of searches.

Theorems (Props/Iteration.lean): `C21_first_result`, `C21_next_result`, `C21_results_apart`, `C21_end_is_justified`, `C21_ends`, `C21_empty_result_repeats`.

### C22 split partitions the subject — proved

Induction over the number of pieces against `Spec/Cuts`.

Scope: The anchored-separator defect is proved as C22_fails_for_anchored.

Theorems (Props/Iteration.lean): `C22_split_pieces`, `C22_split_joined`, `C22_fails_for_anchored`.

### C23 tokenize yields contiguous tokens — proved

Iterator states against the sequence of attempts.

Theorems (Props/Iteration.lean): `C23_first_token`, `C23_tokens_adjacent`, `C23_stops`, `C23_tokens_concat`.

### C24 Multi-subject ranges filter their input — proved

Induction over the list of subjects.

Scope: The reversed end comparison defect is proved as C24_fails_end_not_equal.

Theorems (Props/Iteration.lean): `C24_multi_subject_filters`, `C24_comparison_with_end`, `C24_fails_end_not_equal`.

### C25 UTF-8 subjects are decoded correctly — proved

Bit-level lemmas for each length of sequence, then simulation of the machine over the UTF-8 cursor by the machine over the code points.

Scope: Well-formed text, patterns without back references (these do not compile on u8 subjects). Lookbehind with the standard library of C++20, or for code points below 256; C25_fails_for_lookbehind refutes it above with an older library.

Theorems (Props/Utf8.lean): `C25_iteration`, `C25_matching`, `C25_matching_behind`, `C25_fails_for_lookbehind`.

### C26 UTF-8 iteration is safe and reversible — partial

Well-formed text as for C25; arbitrary bytes for patterns that never step back. False on malformed text, with proved witnesses, hence partial.

Scope: Reversibility and span bounds for well-formed text; memory safety on arbitrary bytes for patterns that never look back. C26_fails_for_truncated and C26_fails_for_boundary refute the claim for malformed text.

Theorems (Props/Utf8.lean): `C26_reversible`, `C26_spans`, `C26_forward_safe`, `C26_fails_for_truncated`, `C26_fails_for_boundary`.

### C27 Pattern literals are decoded correctly — proved

Induction over the encoded code points; `is_same_as` is equality. `C27_correct_utf8`/`C27_correct_utf16` characterise the correctness flag over all code unit sequences (`Sequences8`, `Sequences16` in Spec/Utf8.lean).

Scope: Malformed literals may be accepted with another content (C27_malformed_accepted).

Theorems (Props/FixedString.lean): `C27_utf8`, `C27_utf16`, `C27_encodings_agree`, `C27_length`, `C27_incorrect`, `C27_correct_utf8`, `C27_correct_utf16`, `C27_malformed_accepted`, `C27_same`.

### C28 Every pattern is either accepted or rejected — partial

Induction on the length of input and stack: the machine needs a linear number of steps. The grammar table is checked to be unambiguous by evaluation over the whole table and lifted to all inputs. The claim that it always decides is false (multi-letter mode groups, ranges that begin with a named class, ...), hence partial; C28_decided_partial and C74 give the texts on which it holds.

Scope: Termination in linear time, absence of ambiguity between rules, and the position of the error hold for every string. The claim that every string is accepted or rejected is false: C28_fails_undecided exhibits strings for which no semantic action applies. C28_decided_partial shows it for all strings without the seven features of C74.

Theorems (Props/Parser.lean, Props/Undecided.lean): `C28_unambiguous`, `C28_terminates`, `C28_build_terminates`, `C28_error_position`, `C28_fails_undecided`, `C28_decided_partial`.

### C29 A literal pattern matches exactly itself — proved

From the text through the parser to the results, for all subjects.

Scope: For every pattern text without special characters, every flag, subject and configuration; match, starts_with and search.

Theorems (Props/Literal.lean): `C29_match`, `C29_search`, `C29_starts_with`.

### C30 Capture groups are numbered by opening parenthesis — proved

(a) Invariant of all runs of the parser: the numbers of the groups on the stack form a block below the counter (`Numbering`); (b) for printed trees, exact numbering from 1 (`SurfaceCaps`).

Scope: Increasing, consecutive numbers for every accepted text (C30_accepted_*); from 1, one per opening parenthesis, for every text of a syntax tree of Spec/Surface.lean and hence for every accepted text outside the exceptions of C45 (C30_accepted_from_one); for mode groups with several letters C30_fails_letters gives a counterexample.

Theorems (Props/Accepted.lean, Props/Language.lean, Props/Syntax.lean): `C30_accepted_increasing`, `C30_accepted_consecutive`, `C30_fails_letters`, `C30_accepted_from_one`, `C30_numbering`, `C30_results`, `C30_distinct`.

### C31 Parsing inverts printing — proved

Forward run of the parser over the printed text, by induction over the syntax tree, in arbitrary context; the built tree has the meaning of the syntax tree (`SurfaceMeaning`).

Scope: Acceptance, meaning, and from the pattern text to the results of match/starts_with/search for every syntax tree of Spec/Surface.lean; flattening of sequences and fusion of repetitions included.

Theorems (Props/Syntax.lean): `C31_meaning`, `C31_accepted`, `C31_match_sound`, `C31_starts_with_sound`, `C31_search_sound`, `C31_match_iff`.

### C32 Numbers in patterns — proved

Induction over digit strings.

Scope: Counts: for every single character (however written) with *, +, {n}, {n,}, {n,m} of any kind and arbitrarily long digit strings, match is characterised by the numbers modulo 2^64 (C32_counts), hence by the written numbers below 2^64 (C32_written); meaning for any repeated atom (C32_meaning); hexadecimal codes likewise.

Theorems (Props/Numbers.lean): `C32_counts`, `C32_written`, `C32_meaning`, `C32_modulo`, `C32_hexadecimal`, `C32_fixed_width`, `C32_wraps`.

### C33 Escape sequences denote their characters — proved

Evaluated for each escape in an arbitrary context; `C33_spelling` for whole patterns.

Scope: As whole patterns, as members of bracket sets, and in any context (patterns differing only in spelling are the same pattern). The defect of \\e is C33_fails_escape.

Theorems (Props/Escapes.lean): `C33_char`, `C33_controls`, `C33_punctuation`, `C33_set`, `C33_set_controls`, `C33_spelling`, `C33_fails_escape`.

### C34 The greedy-to-possessive optimisation does not change results — proved

Agreement of the two configurations on steady patterns by induction on the fuel of both (`GreedyOpt`), using soundness of the first sets (`FirstRun`). When case is ignored, the first sets are sound for the subject brought into the case of the pattern (`Lemmas/OneCase.lean`).

Scope: For steady patterns (the class of the statement) that compile: match, starts_with and search return identical results with and without the optimisation, all captures included; C34_match_iff lifts soundness and completeness to the optimised machine. The conditions are shown necessary by C34_fails_*.

Theorems (Props/GreedyOpt.lean): `C34_match`, `C34_starts_with`, `C34_search`, `C34_same_results`, `C34_match_iff`, `C34_starts_with_iff`, `C34_search_iff`, `C34_fails_caseless`, `C34_fails_boundary`, `C34_fails_begin`, `C34_fails_line_end`, `C34_fails_empty_iteration`.

### C35 Non-colliding first sets are disjoint — proved

Interval arithmetic (`Collides`).

Scope: For ordered ranges and character constants below 2^31, on every subject character and with any meaning of Unicode properties: two first sets reported as non-colliding have no common character. C35_classes_caseless is the case-insensitive version for classes written in one case; counterexamples for the caseless mode, inverted ranges and large constants are proved (C35_fails_*).

Theorems (Props/FirstSets.lean): `C35_disjoint`, `C35_collision_found`, `C35_classes`, `C35_classes_caseless`, `C35_fails_caseless`, `C35_fails_inverted_range`, `C35_fails_large_constant`.

### C36 Fusing adjacent repetitions preserves meaning — proved

`combineRepeat` against sums of iteration counts.

Scope: The fused repeat has the combined bounds and, when the bounds are in order and the sums do not overflow, exactly the runs, the language and the greedy/lazy results of the two repeats in sequence; possessive fusion is shown correct at the end of a pattern and shown wrong in front of other text (C36_fails_possessive). Inverted bounds and overflow: C36_fails_inverted, C36_fails_overflow.

Theorems (Props/Fusion.lean): `C36_built`, `C36_meaning`, `C36_language`, `C36_greedy`, `C36_lazy`, `C36_possessive_last`, `C36_fails_possessive`, `C36_fails_inverted`, `C36_fails_overflow`.

### C37 Flags and inline modes — proved

Flags: last one wins, by induction over the list. Modes: equations of the machine and of the specification. Several letters: the grammar runs one concatenation for the whole `(?im)` but each letter has pushed a mode (`letters_run`), so the first items stay at the bottom of the parser's stack and are ignored (`joins_take`); groups in the removed items would still be counted and are excluded.

Scope: Flag lists; a leading mode equals the flag for all entry points; a mode in the middle (results for text, meaning for arbitrary surroundings, alternatives unaffected). The several-letter defect is C37_fails_letters; C37_letters and C37_letters_last say what such patterns are instead.

Theorems (Props/Letters.lean, Props/Modes.lean): `C37_letters`, `C37_letters_last`, `C37_flags_case`, `C37_flags_line`, `C37_prefix`, `C37_text`, `C37_inline`, `C37_alternative`, `C37_groups`, `C37_fails_letters`.

### C38 Result comparison operators are consistent — proved

Case analysis of the operators, on top of the spans of C55.

Scope: The exceptions are proved as C38_fails_for_unmatched_capture and C38_fails_empty_at_end.

Theorems (Props/Compare.lean): `C38_result_equals`, `C38_capture_equals`, `C38_fails_for_unmatched_capture`, `C38_fails_empty_at_end`.

### C39 Named and numbered access agree — proved

Lookup by number and name over the list of groups.

Theorems (Props/Results.lean): `C39_reachable_by_number`, `C39_named_access`.

### C40 Results do not depend on how patterns are bracketed — proved

Simulation up to bracketing (`Flat`).

Theorems (Props/Brackets.lean): `C40_brackets_eval`, `C40_brackets_same_results`, `C40_three_pieces`.

### C41 Zero-terminated subjects behave like views — proved

Simulation between the zero-terminated cursor and the sequence.

Scope: For patterns with distinct capture numbers, as the parser produces.

Theorems (Props/ZeroTerminated.lean): `C41_zero_terminated`, `C41_view`, `C41_needs_terminator`.

### C42 When two iterators compare equal — proved

By induction over the increments between the two iterators: the position stays exactly if every live result in between is empty and lies there (`RIter.nth_eq_iff`). The last result and the exhausted iterator have the same position, a proved defect.

Scope: Exact condition for equality (C42_equal_exactly); the defect at the end of the range is C42_fails_at_end.

Theorems (Props/Iteration.lean): `C42_comparisons`, `C42_distinct_results`, `C42_equal_exactly`, `C42_equal_exactly_tokenize`, `C42_position`, `C42_fails_at_end`.

### C43 The MSVC greedy variant computes the same result — proved

The reference-parameter loop equals the recursive one, by induction.

Theorems (Props/Msvc.lean): `C43_msvc_eval`, `C43_msvc_same_results`.

### C44 Every call yields a result — proved

`Compiles`: the outcome `ill` is unreachable for patterns in the class; with C08 and C09 every call returns.

Scope: For the class of the statement, which is decidable; C44_fails_* show what does not compile.

Theorems (Props/Compiles.lean): `C44_compiles`, `C44_every_call_yields_a_result`, `C44_fails_mode`, `C44_fails_negative_set`, `C44_fails_lookbehind`, `C44_fails_atomic`.

### C45 The accepted texts are exactly the texts of the documented syntax — proved

Backward run of the parser (`ParseBack`, `ParseBackBody`): from acceptance, by induction on the length of the text, the pieces of a syntax tree are recovered; with the forward run of C31 this is an equivalence. Uniqueness: `print` is injective on well-formed trees (`PrintInj`).

Scope: Acceptance iff a reading exists, uniqueness of readings (print is injective), meaning and results of accepted texts. (?im) is accepted without a reading: C45_fails_letters.

Theorems (Props/Language.lean): `C45_accepted_iff`, `C45_unique`, `C45_meaning`, `C45_match_sound`, `C45_search_sound`, `C45_fails_letters`.

### C46 The reported match is the preferred one — proved

Specification `Spec/Ways.lean`: the list of all ways, by recursion on the pattern, with the loop combinators `times`, `most`, `fewest`. Proof in three steps: the machine returns the first way of its own states (`WaysEval`, induction on fuel with an ordered continuation semantics of the stack), the lists of machine states and of specification states correspond element by element (`WaysRefine`), the result object reports the state (`WaysReport`). `WaysFirm` compares the two rules for iterations and the ways with the declarative matches.

Scope: First way reported, with all captures, for match, starts_with and search; with the optimisation for steady patterns. The usual order (all ways of an iteration) holds for firm patterns only: C46_fails_usual_order, C46_fails_fixed_count.

Theorems (Props/Preference.lean): `C46_starts_with`, `C46_match`, `C46_search`, `C46_first_way`, `C46_first_way_optimised`, `C46_search_optimised`, `C46_usual_order`, `C46_ways_are_matches`, `C46_match_iff`, `C46_fails_usual_order`, `C46_fails_fixed_count`.

### C47 Testing a Unicode property never reads outside of the tables — proved

Each kind of table has an invariant of its lookup (`UniSearch`: binary searches stay inside, `UniBits`: the indices of the tries are in range for every value), checked by evaluation over the whole table.

Scope: For every property that the name tables lead to and every natural number as value.

Theorems (Props/Categories.lean): `C47_no_undefined_read`.

### C48 \p{category} matches exactly the code points of the general category — partial

Every table is turned into one big number whose bit c is the answer for code point c (`UniBits`, `UniRows`); a lemma per kind of table shows that its lookup returns this bit for every c (binary search by induction). The equality with the number of the specification is evaluated by the kernel, and lifted to every code point. `UniGc`, `UniDenotes` go from the pattern text through the parser and the machine.

Scope: Exact for 28 of 30 categories, for the groups L, LC, M, N, S, Z and for all their accepted names. Pd, P, C and Cn are wrong (C48_fails_dash, C48_fails_unassigned); what they do match is stated exactly in C48_found_partial and, for C, in C48_no_others. Values that are no code points: C48_fails_negative_char.

Theorems (Props/Categories.lean): `C48_general_category_partial`, `C48_no_others`, `C48_found_partial`, `C48_fails_dash`, `C48_fails_unassigned`, `C48_fails_negative_char`.

### C49 \p{script} and \p{scx=script} match exactly the script — proved

As C48 for the range tables of scripts, with the search by induction over the sorted array; script extensions as the union of the tables in order of the number of extensions (`UniScripts`, `UniScx`).

Scope: All scripts and script extensions, from the pattern text to the result of match, with \p and \P. The aliases Qaac and Qaai are not accepted names (C53).

Theorems (Props/Scripts.lean): `C49_script`, `C49_script_value`, `C49_script_extension`.

### C50 \p{block=name} matches exactly the block — proved

The block table is a sorted list of first code points; the search is an upper bound.

Scope: All blocks. Five aliases are not accepted names (C53).

Theorems (Props/Scripts.lean): `C50_block`.

### C51 \p{age=version} matches exactly the code points of the version — partial

As C50; the comparison `cp_age(c) <= v` is also true for the value `unassigned`, which is 0, hence partial.

Scope: Exact on the code points assigned in Unicode 14.0; false for the others (C51_fails_unassigned), which are all matched (C51_exact_partial).

Theorems (Props/Scripts.lean): `C51_age_partial`, `C51_exact_partial`, `C51_fails_unassigned`.

### C52 \p{property} matches exactly the code points with the binary property — partial

As C48 (`UniProps`). Arrays of twenty and more elements are searched by bisection although they are not sorted; what is found is computed exactly.

Scope: Exact for 37 properties and for Any and ASCII; false for the others, whose sets are stated exactly (C52_exact_partial, C52_found_partial, C52_assigned_set_partial): three lose their reserved code points, Alphabetic five code points, Dash, Extender and Soft_Dotted most of theirs, Case_Ignorable all. Counterexamples: C52_fails_*.

Theorems (Props/BinaryProps.lean): `C52_binary_property_partial`, `C52_assigned_partial`, `C52_alphabetic_partial`, `C52_exact_partial`, `C52_no_others`, `C52_found_partial`, `C52_fails_unsorted`, `C52_fails_case_ignorable`, `C52_fails_reserved`, `C52_any_ascii`, `C52_assigned_set_partial`, `C52_fails_private_use`.

### C53 Exactly the names of the Unicode database are accepted, in any letter case — partial

The first entry of a name table for which `propnamecomp` gives zero is taken; the comparison is zero exactly for names that are equal up to case and the characters taken as underscore (`UniNames`). The tables are compared with the names of the specification by evaluation. Rejection: `UniReject`. `ctll::reject` as part of a pattern is the tree `.reject false`. Simplification: `\P{name=value}` and sets with an unknown value are taken as not compiling; in the code only their use in a match does not compile, since `match_char` is missing.

Scope: Acceptance is characterised for all words (C53_accepted_partial, C53_value_accepted, C53_negated_value_accepted), with the missing aliases listed; they are the counterexamples to the full claim (C53_fails_aliases, C53_fails_values).

Theorems (Props/PropNames.lean): `C53_letter_case`, `C53_accepted_partial`, `C53_fails_aliases`, `C53_negated_value_accepted`, `C53_value_accepted`, `C53_fails_values`.

### C54 The general categories partition the code points — proved

The thirty sets of C48 as patterns really match them, checked to be a partition by evaluation of the sorted ranges.

Scope: As stated; it holds in spite of the dashes that are missing in Pd, because they are matched by Cn.

Theorems (Props/Categories.lean): `C54_one_category`.

### C55 The accessors of a capture give the text it has captured — partial

The invariant of C07 says that a group of a successful result is either untouched or a span; from there each accessor is computed. `copyFrom_eq` by induction on the length, `C55_size_utf8` by induction on the number of code points.

Scope: Proved for every capture except where the claim is false: to_view() and data() of an empty capture at the end of the subject (C55_fails_empty_at_end), size() and to_string() of a failed search (C55_fails_failed_search).

Theorems (Props/Access.lean): `C55_taken_part_partial`, `C55_not_taken_part`, `C55_failed`, `C55_match_text`, `C55_fails_empty_at_end`, `C55_fails_failed_search`, `C55_size_utf8`.

### C56 to_number gives the number in front of the captured text — proved

Specification `Spec/Numeral.lean`: sign, digits, rest, value by `Nat.ofDigits`. `digitsFrom_eq` by induction on the digits.

Scope: Stated with what the code does on errors: 0. That errors cannot be told from 0 is C56_fails_errors.

Theorems (Props/Access.lean): `C56_to_number`, `C56_no_number`, `C56_whole_subject`, `C56_fails_errors`.

### C57 The operators | and >> combine patterns — proved

`|`: the alternation of C10 at the top of the pattern, lifted to the calls; for search by comparing the first positions. With groups: a run depends on the captures only through the slots found by the numbers the pattern uses (`eval_slots`, induction on the fuel over two runs with different lists of groups; specification `Spec/Numbers.lean`), so each alternative runs as it does alone. `>>`: C58 and the product of languages. With groups: `Spec/Numbers.lean` defines the pattern with shifted numbers; the two runs are compared step by step, first while the first pattern runs, with an arbitrary rest (`eval_prefix`), then while the second one runs (`eval_merge`: a group is the shifted one if that was entered; groups that are entered and not left yet are tracked by the marks on the stack). That the numbers have no influence on the analysis of first characters and anchors is `loopCollides_bare`, `anchorRe_bare`.

Scope: | without groups: equal results; with groups and references by number: the same match and groups by number (C57_or_groups_*). >>: regular patterns with unambiguous repetitions (C57_then, C57_then_groups); with groups in both, every pattern, compared with numbers that do not collide (C57_then_reports_*, no back references in the second; C57_numbers_*, in neither). Numbers of groups collide: C57_fails_numbering, C57_fails_names.

Theorems (Props/Either.lean, Props/Operators.lean, Props/Renumber.lean): `C57_or_groups_starts_with`, `C57_or_groups_match`, `C57_or_groups_search`, `C57_fails_names`, `C57_or_starts_with`, `C57_or_match`, … (16 theorems).

### C58 match, starts_with and search decide the regular language of the pattern — proved

Specification `Spec/Language.lean`: the language of a pattern in Mathlib's `Language`. `Lemmas/Language.lean` shows by induction on the pattern that the declarative matches consume exactly the words of the language (`Consumes`, closed under product, power and union); C01 and C02 give the calls.

Scope: Soundness without conditions on repetitions; both directions for the decidable class r.plain, with the optimisation of greedy repetitions for steady patterns (C58_decides). Outside of the class: C58_fails_for_ambiguous_loop.

Theorems (Props/Regular.lean): `C58_match_sound`, `C58_starts_with_sound`, `C58_search_sound`, `C58_match`, `C58_starts_with`, `C58_search`, `C58_decides`, `C58_same_language`, `C58_fails_for_ambiguous_loop`.

### C59 Patterns that do not look back ignore the text before — proved

Instance of the simulation between iterators used for C41 (`Lemmas/Cursor.lean`): the iterator of the subject started at `k` walks over the rest, except for the operations `begin == current` and `--current`, which `Re.forward` patterns do not use. The iterators carry positions through `moved` (`Lemmas/Shift.lean`).

Scope: For the decidable class r.forward; C59_fails_looking_back shows a subject for each excluded construct.

Theorems (Props/Shift.lean): `C59_calls`, `C59_search_first_rest`, `C59_search_all`, `C59_tokenize`, `C59_split`, `C59_fails_looking_back`.

### C60 Patterns are read according to the grammar file — proved

`Spec/PcreGram.lean` transcribes /repo/include/ctre/pcre.gram (by a script, line by line) and defines leftmost derivations of sequences of characters and actions. Every nonterminal of the tables stands for a list of alternatives of the file (`mean`). For each nonterminal and each class of characters, `agreesAt` expands both sides up to the first character and compares (`decide +kernel` over the whole table, with checked first and follow sets); `Lemmas/PcreGram*.lean` lift this to all texts: soundness and completeness of the run by induction on its length, with the invariant that every nonterminal on the stack is followed by what its follow set says. Viable prefixes: every nonterminal is productive (checked ranking).

Scope: The grammar file is transcribed in Spec/PcreGram.lean; derivations and the order of actions are defined there without tables, stacks or lookahead.

Theorems (Props/PcreGram.lean): `C60_derived`, `C60_accepts_iff`, `C60_builds_iff`, `C60_unambiguous`, `C60_underivable`, `C60_error_viable`.

### C61 Calls as they are written: literals, subjects and functions of the interface — proved

`Model/Api.lean` models the function templates and the overloads of `exec` over a cursor for each kind of subject. The answers for a view, a zero-terminated string and UTF-8 are images of the answers on a list of values (`Spec/Api.lean`), by the simulation of C25 and C41 (`Walks`) for single calls and induction over the increments for the iterators. The literals decode to the same text (C27). The end-to-end theorems compose C27, C25, C45, C58.

Scope: UTF-8 subjects for patterns without back reference, with lookbehind as in C25. The parts of the claim that are false have proved counterexamples C61_fails_*.

Theorems (Props/Api.lean): `C61_literals`, `C61_view`, `C61_cstr`, `C61_utf8`, `C61_utf8_behind`, `C61_members`, … (15 theorems).

### C62 What the compiler instantiates for a call: which patterns compile, and how many instantiations they need — proved

`Model/Static.lean` gives for each stack the stacks whose `evaluate` is named in the body of its overload (`uses`), and the closure. Coverage is an induction on the fuel as for C44, with "compiles" as hypothesis in place of a syntactic class. The exact conditions (`Spec/Static.lean`) are proved by structural recursion over the pattern with an arbitrary rest of the stack, once in each direction; the analysis of first characters is defined for a list of items exactly if `Re.seen`, because it threads a list whose content does not matter. `Lemmas/StaticCount.lean` lists the possible stacks (four for each node) and shows the list closed under `uses`; `Lemmas/StaticText.lean` bounds the nodes of the tree by the length of the text. Not counted: the instantiations of the parser, of the analysis and of `evaluate_recursive` (one for each greedy repetition). Iterators in nested lookbehinds are of different types; the model has one flag for all of them, which merges no two entries of the list.

Scope: Exact without the greedy optimisation, and with it for patterns without a negated class inside of a class; necessary conditions for all patterns. C62_fails_unreached: a pattern rejected because of a part that is not reached.

Theorems (Props/Static.lean): `C62_search_covered`, `C62_match_covered`, `C62_match_iff_search`, `C62_necessary`, `C62_iff_plain`, `C62_iff_without_optimisation`, `C62_of_compiles`, `C62_few_instantiations`, `C62_linear_in_text`, `C62_fails_unreached`, `C62_dead`.

### C63 The set of intervals behind the first-character analysis: storage, order and exactness — proved

`Model/PointSet.lean` has the array with indices, `lower_bound` and the shifting loop as they are written; every access outside of the array is a result of its own. The invariant `Stores` relates the array to the list of intervals of `Model/First.lean`: the elements in use are a permutation of it and sorted. Capacity is an induction over the classes (`sizeCC` bounds the number of intervals). Exactness goes through the ranges a class lists (`Spec/PointSet.lean`): the walk over an ascending list of members produces exactly the gaps, every interval has ends that are constants of the pattern or the limits of `int64_t`, and two such intervals that touch share a character.

Scope: Exactness for classes that list their members; refuted otherwise (C63_fails_unordered, C63_fails_asymmetric).

Theorems (Props/PointSet.lean): `C63_in_bounds`, `C63_same_answer`, `C63_filled`, `C63_insert`, `C63_room_needed`, `C63_disjoint`, `C63_exact`, `C63_symmetric`, `C63_fails_unordered`, `C63_fails_asymmetric`.

### C64 Matching takes polynomial time in the length of the subject — proved

`Model/Steps.lean` follows `eval` case by case and counts one for each call of `evaluate`, plus the comparisons inside of strings and back references; which calls are made is decided by the outcomes of `eval`. `steps_le` bounds the count by a function of the pattern and a bound for the fuel (induction on the fuel, lemmas for the four loops); that function is polynomial of degree `Re.degree` (`Spec/Steps.lean`), which follows how often the rest of the pattern is tried. With the fuel of C09 a finished count does not depend on the fuel (`Lemmas/StepsMono.lean`), so the bound is about the program and not about the fuel. The reason for polynomial work is that the body of a repetition is evaluated on its own and never re-entered. The lower bounds are proved for a row of lazy repetitions by induction on the number of repetitions and of letters left (`ways`). Not counted: the members of a class and the elements of a result that is copied (constant for a pattern), and compile time.

Scope: Work inside of one call (class members, copying of captures) is constant for a pattern and not counted.

Theorems (Props/Steps.lean): `C64_match`, `C64_starts_with`, `C64_search`, `C64_exponent`, `C64_constant`, `C64_linear`, `C64_needed`, `C64_search_needed`.

### C65 The nesting of calls is linear in the subject and constant for most patterns — proved

`Model/Depth.lean` follows `Model/Steps.lean` with the maximum over consecutive calls in place of the sum; the loops of lazy and possessive repetitions and of mandatory iterations do not nest, `evaluate_recursive` does. One induction on the fuel (`depth_le`) gives both bounds: every nested iteration of a greedy repetition uses up a character (`eval_moves` of C09), so that consecutive and nested repetitions share the same budget, the rest of the subject; without such repetitions only the weight of the stack counts. The depth of a finished call does not depend on the fuel (`C65_finished`).

Scope: Nested calls as written; most of them are marked for inlining, evaluate_recursive is not.

Theorems (Props/Depth.lean): `C65_depth`, `C65_shallow`, `C65_ungreedy`, `C65_finished`, `C65_needed`.

### C66 cp_numeric_value gives the numeric value of every code point — proved

The searches in the five tables are shown to be look-ups (`assoc_of_bound`: binary search in a strictly ascending list, by induction), the tables are merged into one list of fractions, and this list is compared with the expanded specification (`Spec/UcdNumeric.lean`, from the Unicode database of Python) by evaluation over the whole list; membership lifts it to every value of `char32_t`. Fractions are compared by cross-multiplication: the tables have 2/12, the specification 1/6. `value()` (`Model/UniDouble.lean`): conversion and division round to 53 binary digits, to nearest, ties to even, as IEEE 754 prescribes; both integers convert exactly, and rounding is shown to give a nearest number (`roundDouble_nearest`), where the specification (`Spec/Double.lean`) only says which numbers a double can hold.

Scope: value() with IEEE 754 arithmetic on rational numbers (one zero, unlimited exponents in the model; the statement has the limits of binary64).

Theorems (Props/Double.lean, Props/Numeric.lean): `C66_double`, `C66_value`, `C66_value_unique`, `C66_digits`, `C66_numbers`.

### C67 The look-up functions of the Unicode database give the properties of Unicode 14.0 — proved

Specification: the ranges and names of `Spec/Ucd*.lean` and `Spec/UcdApi.lean` (the values a loop over a view visits). The tables of categories are shown to be disjoint, and each equal to the ranges of the specification (the lemmas of C48 to C51), so that the first table that contains a code point decides; scripts, blocks and ages by the binary searches of C49 to C51; script extensions by comparing, over the whole table, the rows of the specification with the layers of the code.

Scope: The statement names the exceptions; they are proved as C67_fails_dashes, C67_fails_block and C67_fails_increment. The aliases Cntrl and Digit of categories are not in the table of names.

Theorems (Props/UniApi.lean): `C67_category`, `C67_fails_dashes`, `C67_script`, `C67_script_extensions`, `C67_script_extensions_unique`, `C67_block`, `C67_age`, `C67_unknown_name`, `C67_no_code_point`, `C67_fails_block`, `C67_fails_increment`, `C67_no_undefined_read`.

### C68 A loop over all results takes no more work than a single search may take — proved

`Model/IterSteps.lean` adds the work of the calls behind the increments. A search that reports a match at b took b - p + 1 attempts (induction over the loop of search), the next search starts at the end of the match, so that the attempts add up to the length plus the number of calls; the work of one attempt comes from C64, the number of results from the lemma that a success of a pattern that moves lies behind its start (`eval_moves`, C44).

Scope: Work as in C64. The bound fails for patterns with empty matches, which the statement says (C68_fails_empty).

Theorems (Props/IterSteps.lean): `C68_search_all`, `C68_search_all_total`, `C68_tokenize`, `C68_tokenize_total`, `C68_split`, `C68_split_total`, `C68_fails_empty`.

### C69 Output and structured bindings give the text and the groups — proved

The operators are modelled on `to_view`; C55 gives the spans. For the bindings, the numbers of the groups of a result are those of the reading of the text (C30), an ascending sequence from 1, in which look-up by number is look-up by position (induction).

Scope: Output is the sequence of characters passed to the stream; formatting flags of the stream are not modelled. The exceptions are C69_fails_unmatched and C69_fails_gap (shown for an atomic group).

Theorems (Props/Compare.lean): `C69_output`, `C69_fails_unmatched`, `C69_bindings`, `C69_bindings_text`, `C69_fails_gap`.

### C70 The parser decides every text in one round per character, and the test literals tell what it decided — proved

The machine as written (`decideAt`, `trampoline` in Model/Ll1.lean) is related to the machine without rounds (`direct`, the parser of C28, for any actions) by an invariant of the rounds: undecided after k rounds means that exactly k characters are read. The grammar file comes in through C60, the single element through C45.

Scope: The exception is C70_fails_two.

Theorems (Props/Literals.lean): `C70_decided`, `C70_builds`, `C70_test`, `C70_syntax`, `C70_syntax_test`, `C70_difference`, `C70_gen`, `C70_gen_iff`, `C70_fails_two`, `C70_fails_test`.

### C71 UTF-8 subjects that may be malformed are read in one defined way — proved

Spec/Utf8Forms.lean defines the forms and the reading `Decodes` of arbitrary bytes without the iterator. One step of the iterator is compared with one step of the reading for all bytes; the calls follow by the simulation of C25 (`decodes_walks`). Patterns that look back are excluded: C26 shows that they can leave the buffer.

Scope: The laxness is C71_fails_overlong, C71_fails_surrogate, C71_fails_swallow and C71_fails_end.

Theorems (Props/Malformed.lean): `C71_total`, `C71_step`, `C71_iteration`, `C71_matching`, `C71_call`, `C71_wellformed`, `C71_wellformed_iff`, `C71_fails_overlong`, `C71_fails_surrogate`, `C71_fails_swallow`, `C71_fails_end`.

### C72 UTF-8 iterators move by code points and compare consistently — proved

Model/Utf8Iter.lean has the loops of + and - and a table of the declared comparison operators for both language versions. Moving is proved through the walks of C25 and C71, comparing by cases over the kinds of operands for arbitrary offsets.

Scope: The exceptions are C72_fails_pointer_left and C72_fails_pointer_sentinel.

Theorems (Props/Utf8Iter.lean): `C72_plus`, `C72_wellformed`, `C72_round_trip`, `C72_postfix`, `C72_symmetric`, `C72_versions_agree`, `C72_negation`, `C72_fails_pointer_left`, `C72_sentinel`, `C72_fails_pointer_sentinel`.

### C73 Found text is matched again, in every context — proved

`Re.inner` (Spec/Inner.lean) is the syntactic condition. Lemmas/Inner.lean shows by recursion over the pattern that the declarative meaning of such a pattern on a part of a subject is its meaning on the whole subject with all positions moved (`Embeds`); C01 and C02 carry this to the calls, C34 and C44 to the configuration with the optimisation.

Scope: The exceptions are C73_fails_lookahead and C73_fails_atomic.

Theorems (Props/Rematch.lean): `C73_starts_with`, `C73_search`, `C73_context`, `C73_split`, `C73_checked`, `C73_split_checked`, `C73_fails_lookahead`, `C73_fails_atomic`.

### C74 Which patterns the parser leaves undecided — proved

`Feature` (Spec/Undecided.lean) describes the seven kinds of texts without mentioning the parser. Lemmas/ParseStuck.lean follows a run of the parser that ends undecided backwards through the grammar, by induction on the number of steps: every part of the text that has been read leaves a pattern on the stack which the next action accepts, or one of the features stands there.

Scope: Features are a superset: a text with one of them may still be accepted or rejected.

Theorems (Props/Undecided.lean): `C74_decided`, `C74_rejected`, `C74_unmarked`, `C74_sharp`.

### C75 Which match is reported follows from the text of the pattern — proved

`Spec/SurfaceWays.lean` gives the list of the ways of a written pattern by recursion on its syntax. The tree built by the parser does not have the same list, because joined repetitions meet the same states several times; both lists have the same first element satisfying any condition (`FirstSame`), which is preserved by concatenation, alternation, cutting and iteration (`FirstSame`, `repeats_join` for `a*a+` = `a+`). `SurfaceOrder` proves this by induction over the syntax, `SurfaceFit` carries the side conditions over to the tree, then C46, C44 and C06 are applied. The ways take the rule for iterations as a parameter; `SurfaceFirm` proves, by inductions over the syntax only, when the rule of the library and the usual rule give the same list, and when the list consists of all matches of C31.

Scope: Stated for the rule of the library that an iteration does not retry its content; C75_fails_over_lazy shows that the exception is necessary. C75_match_usual and C75_search_usual are for the usual order, with the counterexample C75_fails_two_ways.

Theorems (Props/TextOrder.lean): `C75_match`, `C75_search`, `C75_match_optimised`, `C75_search_optimised`, `C75_usual_order`, `C75_match_usual`, `C75_search_usual`, `C75_ways_are_matches`, `C75_fails_over_lazy`, `C75_fails_two_ways`.

### C76 The parser library parses every LL(1) grammar exactly — proved

`Model/Ctll.lean` is the machine of `parser.hpp` for any grammar given as lists of overloads, with rounds and fuel. `Spec/Ctll.lean` defines derivations, FIRST, FOLLOW and LL(1) by derivations, and the best rule, without the machine. `Lemmas/Ctll.lean` describes one step (`Does`), relates the rounds to runs (`Ends`), and proves soundness by induction over the run, completeness by induction over the derivation with the invariant that what the rest of the stack derives is in FOLLOW, termination by well-founded induction over the leading nonterminals. `Lemmas/CtllPcre.lean` shows that the pattern parser is an instance.

Scope: The recursion limit of the compiler is the fuel of a round; C76_fails_not_ll1 and C76_fails_left_recursive show that the conditions are necessary.

Theorems (Props/Ctll.lean): `C76_choice`, `C76_sound`, `C76_complete`, `C76_unambiguous`, `C76_language`, `C76_terminates`, `C76_decides`, `C76_error`, `C76_ignore`, `C76_pcre`, `C76_fails_not_ll1`, `C76_fails_left_recursive`.

### C77 Operations on type lists — proved

`Model/TypeList.lean` models the functions of `list.hpp` with the overload resolution of `check` and `select`; the folds are turned into `reverse`, `filter` and membership.

Scope: Convertibility of types is a parameter; C77_fails_convertible shows the disagreement of exists_in and remove_item.

Theorems (Props/TypeList.lean): `C77_size`, `C77_front`, `C77_concat`, `C77_rotate`, `C77_exists`, `C77_add`, `C77_remove`, `C77_add_remove`, `C77_fails_convertible`.

### C78 Different spellings of a pattern give the same results — proved

`Spec/Respell.lean` lists the laws and closes them under replacement in any context (`Alike`); it mentions neither the meaning nor the library. `Lemmas/Respell.lean` proves by induction over `Alike` that two spellings have the same ordered ways up to later duplicates (`FirstSame`, which is a congruence for all constructs) and the same groups; C75 turns this into equal results.

Scope: C78_fails_two_ways, C78_fails_modes and C78_fails_atomic_star show that the conditions of the laws are necessary.

Theorems (Props/Respell.lean): `C78_ways`, `C78_match`, `C78_search`, `C78_optimised`, `C78_fails_two_ways`, `C78_fails_modes`, `C78_fails_atomic_star`.

### C79 Matching decides the regular language written in the pattern — proved

`Spec/TextLanguage.lean` gives the language of a text as a Mathlib `Language` (it mentions neither parser nor machine). `Lemmas/TextLanguage.lean` proves by induction over the text that the declarative meaning (C31) consumes exactly the words of the language and that the language is regular (closure of `IsRegular` under concatenation, powers and star is proved in `Lemmas/RegularClosed.lean` by counting left quotients). `Lemmas/TextPlain.lean` derives the conditions of C75, including those for the optimised build, from conditions on the text alone.

Scope: C79_fails_two_ways shows that the condition on repetitions is necessary; C79_sound is the half that holds without it.

Theorems (Props/TextLanguage.lean): `C79_decides`, `C79_decides_optimised`, `C79_sound`, `C79_automaton`, `C79_same_language`, `C79_fails_two_ways`.

### C80 search_all, split and tokenize follow from the text of the pattern — proved

`Spec/Scan.lean` defines the list of matches from left to right, the tokens and the gaps for an arbitrary function that gives the preferred end at a position. `Lemmas/Scan.lean` derives the results of the iterators from the results of the attempts at all positions (induction over the rest of the subject), and C75 gives these from the text. `C80_words`, `C80_pieces` and `C80_tokens` restate it in terms of the language of C79.

Scope: C80_fails_empty shows that the condition on empty matches is necessary.

Theorems (Props/TextScan.lean): `C80_iterates`, `C80_unique`, `C80_iterates_optimised`, `C80_words`, `C80_pieces`, `C80_tokens`, `C80_fails_empty`.

### C81 From the call as it is written to its answer — proved

`Spec/Calls.lean` says which literals spell a text and which subjects hold a sequence of code points. The theorems compose C61 (literals and subjects), C45 (the parser), C79 and C80; all conditions are on the text, none on the tree.

Scope: All conditions are on the written text, the modifiers and the subject.

Theorems (Props/TextCalls.lean): `C81_decides`, `C81_iterates`, `C81_bytes`.

### C82 Flags and modes matter only for patterns that contain what they are about — proved

`Spec/Indifferent.lean` states the conditions on the text. The evaluation of two stacks with different flags is compared by induction (`eval_indiff`); the leaves of the tree of a text come from its atoms (`body_leaves`), whatever the parser joins, fuses or reverses. C82_decides combines this with C79 for the default build.

Scope: Back references compare exactly in both modes, so they are allowed.

Theorems (Props/Indifferent.lean): `C82_case`, `C82_line`, `C82_flags`, `C82_prefix`, `C82_language`, `C82_decides`, `C82_letters_matter`, `C82_lines_matter`, `C82_negated_classes_matter`.

### C83 The default build reports the match that is prescribed by the pattern text — proved

`Spec/Robust.lean` states the conditions on the text; `Lemmas/Robust.lean` shows that the tree the parser builds from such a text is steady and scannable (the conditions of C34), that the shortcut of search is right for texts that are `placed` or `begins` (C06; C83_fails_joined_anchor shows that optional parts cannot be allowed in general), and that `forward` texts fit UTF-8 cursors (C61). C83 combines this with C75 (order of the ways), C80 (iterations) and C61 (representations).

Scope: The conditions are decidable predicates of the text (Spec/Robust.lean); the C83_fails_ theorems give texts that violate one of them and for which the default build reports failure.

Theorems (Props/Default.lean): `C83_match`, `C83_search`, `C83_calls`, `C83_search_call`, `C83_iterates`, `C83_fails_boundary`, `C83_fails_line_end`, `C83_fails_mode`, `C83_fails_caseless`, `C83_fails_skipped_anchor`, `C83_fails_joined_anchor`.

### C84 Found text, matched again, has the same groups — proved

`Spec/Within.lean` says which texts look only at what they match. `Lemmas/Embed.lean` shows by induction on the text that the list of ways inside a part is the list of ways in the whole, without those that leave the part, in the same order; C84 applies this to the first way, which is what C83 says is reported. `Echoes` states that two results agree up to the place of the found text.

Scope: Extends C73 (which says that match succeeds) by the groups, to pattern texts and to the default build; the C84_fails_ theorems show that the conditions are needed.

Theorems (Props/Again.lean): `C84_ways`, `C84_match`, `C84_search`, `C84_starts_with`, `C84_iterates`, `C84_context`, `C84_pieces`, `C84_fails_lookahead`, `C84_fails_atomic`, `C84_fails_choice`.

### C85 Calls succeed exactly when the meaning of the pattern text says so — proved

`Candid` is the class of texts; `Body.Can` says, in terms of the declarative `Body.Match` of `Spec/Surface.lean` alone, that a text can match from one place to another. The theorems are about whole calls of the default build. C85_beyond_regular uses the pumping lemma for the automaton of C79.

Scope: Joins C83 (the default build reports the first way) with C75 (the ways are the matches of the declarative meaning); C85_twice and C85_beyond_regular are consequences; the C85_fails_ theorems show that the conditions are needed.

Theorems (Props/Decides.lean): `C85_match`, `C85_starts_with`, `C85_search`, `C85_twice`, `C85_pumping`, `C85_beyond_regular`, `C85_fails_choice`, `C85_fails_atomic`.

### C86 Which loops over results end, and what they yield if matches may be empty — proved

`Spec/Loops.lean` defines three loops over the preferred matches, without mentioning the library: each gives a list of spans and says whether the loop ends after it or stays at an empty span. `Lemmas/Loops.lean` shows by induction on the rest of the subject that the iterators follow these loops, and that they are unique. The theorems are about whole calls of the default build; C86_split_star is a concrete loop that never ends, for every subject. For texts in which every alternative begins with an anchor (`Spec/Hooked.lean`), `search` makes one attempt only and reports the position of that attempt as the end of the search, so that `split` never moves on; C86_split_anchored gives the pieces in terms of the match at the beginning, C86_split_hooked is the case of `^a`. 

Scope: Generalises C80 and C83_iterates to patterns that may match the empty text, and to anchored ones. C86_split_anchored says what split yields for patterns that begin with an anchor; the anchor must not be inside a named group there.

Theorems (Props/Endless.lean, Props/SplitAnchored.lean): `C86_search_all`, `C86_tokenize`, `C86_split`, `C86_unique`, `C86_ends_iff`, `C86_split_ends_iff`, … (15 theorems).

### C87 Ignoring case means bringing the subject into the case of the pattern — proved

`Spec/Recase.lean` states the condition on the text. Evaluation with case ignored on a subject and evaluation on the subject in one case go through the same steps (`eval_recast`, induction on the fuel); the leaves of the tree meet the condition because the atoms of the text do (`body_recased`). Also, `Spec/OneCase.lean` and `Spec/Written.lean` state the weaker condition (with Unicode properties and back references) under which C34, C46, C58, C73, C75, C78 to C81 and C83 to C86 hold when case is ignored.

Scope: The condition is a decidable predicate of the text (Spec/Recase.lean). The C87_fails_ theorems show that the exceptions are needed.

Theorems (Props/Recase.lean): `C87_case`, `C87_view`, `C87_utf8`, `C87_same`, `C87_caseSafe`, `C87_decides`, `C87_fails_mixed`, `C87_fails_back_reference`, `C87_fails_switch`, `C87_fails_range`.

### C88 What the default build does: greedy repetitions that cannot begin like what follows them are possessive — proved

`Spec/Sharpen.lean` defines the sharpened pattern. The machine with the optimisation on a pattern and the machine without it on the sharpened pattern do not contradict each other, for any two amounts of fuel (`eval_sharpen`); both decide by C44. What the two patterns have in common (groups, conditions for compiling, consumption, size) is in `Lemmas/Sharpened.lean`; then C46 and C75 apply to the sharpened pattern.

Scope: Which repetitions are sharpened is stated with the analysis of first characters of the model (loopCollides), whose soundness is C35. C88_fails_anchored shows that the condition for search is needed.

Theorems (Props/Sharpen.lean): `C88_match`, `C88_starts_with`, `C88_search`, `C88_same_results`, `C88_first_way`, `C88_search_way`, `C88_unchanged`, `C88_text`, `C88_calls`, `C88_fails_anchored`.

### C89 Characters that the pattern does not tell apart can be exchanged in the subject — proved

`Spec/Blind.lean` states on pattern texts which characters are not told apart and which subjects are twins. Induction over the evaluation (`eval_twin`): each leaf gives the same answer on both subjects, a back reference because the same characters are equal; reversal for look-behind keeps twins. Then the calls, all functions of the interface, and the representations of subjects (C61).

Scope: C89_fails_equal, C89_fails_case and C89_fails_ascii show that the conditions on back references, on case and on ASCII are needed.

Theorems (Props/Blind.lean): `C89_calls`, `C89_view`, `C89_subjects`, `C89_utf8`, `C89_rename`, `C89_beyond`, `C89_cut`, `C89_finite`, `C89_fails_equal`, `C89_fails_case`, `C89_fails_ascii`.

### C90 Patterns joined by | and >> give the results of the text (?:a)|(?:b) and (?:a)(?:b) — proved

`Spec/Combined.lean` writes the text. Induction over the expression (`Joined`): the conditions on trees of C46 hold and the ways of the tree are those of the text (C75); then the first way is reported by both (C46, C75). The default build follows by C34.

Scope: C90_fails_numbering shows that the condition on groups is needed.

Theorems (Props/Combined.lean): `C90_ways`, `C90_same`, `C90_search_ways`, `C90_search`, `C90_default`, `C90_fails_numbering`.

### C91 Which groups capture, and what they are called, only matters for what can be asked of the result — proved

`Spec/Regroup.lean` relates texts part by part. Induction over the relation (`regroup_ways`): the ways of both texts correspond one to one, in the same order, in states that agree on partners; then C75 (without the optimisation), C83 and C86 (every build).

Scope: C91_fails_fusion shows that both texts have to mean what they say.

Theorems (Props/Regroup.lean): `C91_ways`, `C91_match`, `C91_search`, `C91_calls`, `C91_iterations`, `C91_fails_fusion`.

### C92 match, starts_with and search can be expressed by each other — proved

`Spec/Anchoring.lean` has the six texts. The first four equalities hold for every pattern: the runs are the same step by step (`runs_flat`, and induction on the run for `$`, `eval_dollar`). The last two: the ways of the longer text that end at the end are those of the pattern with the end moved, in the same order (`withRest_ways`, `somewhere_ways`); then C75 and C83.

Scope: C92_fails_multiline and C92_fails_multiline_flag show what multiline mode does to ^ and $.

Theorems (Props/Anchoring.lean): `C92_accepted`, `C92_match_is_starts_with`, `C92_starts_with_is_search`, `C92_match_is_search`, `C92_match_is_search_lines`, `C92_starts_with_is_match`, `C92_search_is_match`, `C92_starts_with_is_match_call`, `C92_search_is_match_call`, `C92_fails_multiline`, `C92_fails_multiline_flag`.

### C93 The order of alternatives, and greedy or lazy, matter for what is found, not for whether something is found — proved

`Spec/Reorder.lean` relates the texts part by part. Induction over the relation: both texts have the same meaning (`reorder_meaning`); calls succeed exactly if the meaning says so (C85).

Scope: C93_fails_ambiguous and C93_fails_atomic show that the conditions are needed.

Theorems (Props/Reorder.lean): `C93_match`, `C93_starts_with`, `C93_search`, `C93_fails_ambiguous`, `C93_fails_atomic`.

### C94 A pattern that allows more succeeds wherever the narrower one does — proved

`Spec/Widen.lean` relates the texts part by part. Induction over the relation: every run that the meaning of the first text has is one of the second text, captures included (`widen_meaning`); calls succeed exactly if the meaning says so (C85).

Scope: C94_fails_ambiguous, C94_fails_atomic, C94_fails_possessive and C94_fails_range show that the conditions are needed.

Theorems (Props/Widen.lean): `C94_match`, `C94_starts_with`, `C94_search`, `C94_fails_range`, `C94_fails_ambiguous`, `C94_fails_atomic`, `C94_fails_possessive`.

### C95 Lookaheads combine patterns like and, and not — proved

A text without groups and references captures nothing and does not depend on the text around it (inductions in `Lemmas/Conjoin.lean`), so the ways of the combined text are those of Q or none (`guarded_ways`); calls report the first way (C83), which C95_match, C95_search, C95_calls, C95_whole and C95_complement compare. The conditions of C83 are demanded for the combined text and shown to hold for its parts (`guarded_parts`).

Scope: C95_fails_groups shows that the condition on groups is needed.

Theorems (Props/Conjoin.lean): `C95_accepted`, `C95_match`, `C95_search`, `C95_calls`, `C95_whole`, `C95_complement`, `C95_fails_groups`.

### C96 A pipeline from a range of subjects keeps exactly the subjects that the pattern describes — proved

C61_pipe reduces the loop over the `multi_subject_range` to a filter by the single calls; by induction on the list of subjects, with C83 for each of them (`found_yields`), the results are those prescribed by the text (`Kept`). C96_kept identifies the subjects kept with those that have a match according to `Body.Match`; C96_twice is the non-regular example.

Scope: Combines C24 and C61_pipe (the range filters) with C83 and C85 (what single calls report).

Theorems (Props/Pipe.lean): `C96_pipe`, `C96_kept`, `C96_twice`.

## 7. Defects found

Each of these follows from the text of the code. "Proved" names the theorem with the concrete witness.

* Loop bodies are matched without backtracking into them: `(?:a|ab)*c` does not match "abc" (`C02_fails_for_ambiguous_loop`).
* A mandatory iteration that matches empty text fails: `(?:a?)+` on "" (not-empty demand; see C34_fails_empty_iteration).
* `(?:a*a?)*` on "b" never returns (`C09_diverges`).
* `a{0}` and `a{0,0}` behave like `a*` (`C12_fails_for_zero_bound`); counts wrap modulo 2^64 (`C32_wraps`).
* The search shortcut loses matches: `(?:^a)*b` in "xb" (`C06_fails_for_skipped_anchor`).
* The greedy-to-possessive optimisation changes results: `C34_fails_*`; the collision test is unsound in caseless mode, for
  inverted ranges and for constants near 2^32: `C35_fails_*`.
* Missing overloads in the first-character analysis: `a*(?i)b`, `[^\W]*b` do not compile (`C44_fails_mode`,
  `C44_fails_negative_set`); neither do captures in atomic groups or repetitions in lookbehinds (`C44_fails_atomic`,
  `C44_fails_lookbehind`), not even when they are never reached (`C62_fails_unreached`).
* `\B` behaves as `\b` inside the subject (`C18_fails_*`). `\e` is 0x14 (`C33_fails_escape`).
* Mode groups with several letters keep one letter, drop preceding text and groups, or leave the parser undecided
  (`C37_fails_letters`, `C30_fails_letters`, `C28_fails_undecided`).
* `[[:alpha:]-z]`, `(?<n>\g{m})`, `\x{100000000}` do not compile although the grammar accepts them (`C28_fails_undecided`).
* Fusing possessive repetitions changes the language (`C36_fails_possessive`); fusion with inverted bounds or overflowing
  sums as well (`C36_fails_inverted`, `C36_fails_overflow`).
* Back references ignore the caseless mode (`C16_ignores_case_insensitive`).
* Lookbehind: anchors are not mirrored (`C15_fails_for_anchors`).
* Case-insensitive ranges fold only for ends of the same case (`C19_fails_for_mixed_range`).
* split with an anchored separator that fails never ends (`C22_fails_for_anchored`); empty matches repeat for ever
  (`C21_empty_result_repeats`).
* `end != it` of multi_subject_range is inverted (`C24_fails_end_not_equal`); a capture that is not matched is neither equal nor
  unequal to a text (`C38_fails_for_unmatched_capture`); search_all iterators on the last result equal exhausted ones
  (`C42_fails_at_end`).
* UTF-8: truncated sequences give spans beyond the buffer (`C26_fails_for_truncated`), stepping back reads before the buffer
  (`C26_fails_for_boundary`), with a standard library before C++20 lookbehind sees code points modulo 256
  (`C25_fails_for_lookbehind`; tests 219 and 220 of tests/matching3.cpp are commented out). Malformed literals are
  accepted (`C27_malformed_accepted`): nobody asks `fixed_string::correct()`, so that the pattern is the text before the
  malformed place and even syntax errors after it go unnoticed (`C61_fails_malformed`).
* UTF-16 subjects are matched by code units but literals are decoded (`C61_fails_utf16`); `char` literals are read unsigned but
  `char` subjects signed (`C61_fails_signed`).
* Not modelled, from reading: without `operator<=>`, `operator!=(const char8_t *, const utf8_iterator &)` is `==`
  (ctre/utf8.hpp:93-95). `ctre::pattern` and `ctre::fixed_string` pass an array of N elements to a constructor of
  `ctll::fixed_string<N>` that takes N + 1 (ctre/functions.hpp:12-30, ctll/fixed_string.hpp:148), so that no use compiles. `re<input,
  Modifier>` passes the modifier as the method (ctre/functions.hpp:44).
* Unicode properties: arrays with twenty or more elements are searched by bisection although they are not sorted. `\p{Pd}` misses
  15 of 26 dashes, `-` among them, hence also `\p{P}` (`C48_fails_dash`), while `\p{Cn}` matches them (`C48_fails_unassigned`);
  `\p{Dash}`, `\p{Extender}` and `\p{Soft_Dotted}` find 10 of 30, 4 of 50 and 6 of 47 (`C52_fails_unsorted`; which ones: `C52_found_partial`).
* `\p{C}` omits `Cn` (`C48_fails_unassigned`); `\p{age=v}` matches all unassigned code points (`C51_fails_unassigned`);
  `\p{Case_Ignorable}` matches nothing (`C52_fails_case_ignorable`); `\p{Assigned}` excludes surrogates and private use
  (`C52_fails_private_use`); reserved code points are missing in three properties (`C52_fails_reserved`).
* `cp_category` reports these 15 dashes as unassigned (`C67_fails_dashes`); `cp_block` gives a block for 0x110000
  (`C67_fails_block`); `++it` and `it++` of `script_extensions_view::iterator` have each other's results (`C67_fails_increment`).
* Values above 0x10FFFF, which negative `char` values become, are not rejected: `\p{L}` matches the `char` -128
  (`C48_fails_negative_char`).
* Unknown `\p{name=value}` is not a syntax error: `decltype(prop)` in `properties.inc.hpp:40` is `const ctll::reject` and is compared with `ctll::reject`, so the marker becomes part of the pattern, for which `evaluate` has only the sink overload. The pattern compiles and never matches (`C53_value_accepted`). Aliases are missing (`C53_fails_*`).
* `to_view()` of an empty match at the end of the subject dereferences the end iterator, except with MSVC (`C55_fails_empty_at_end`,
  also for comparisons, `C38_fails_empty_at_end`, and output); a failed search returns a result with an end but
  without a begin, so that its `size()` is undefined (`C55_fails_failed_search`).
* `to_optional_number()` returns 0 for a number that is too large and for a text that is no number (`C56_fails_errors`).
* Overlong UTF-8 forms, surrogates and values above U+10FFFF in subjects are read as such (`C71_fails_overlong`,
  `C71_fails_surrogate`); an ill-formed sequence swallows the next character (`C71_fails_swallow`).
* Before C++20 `pointer != utf8_iterator` is `==` (`C72_fails_pointer_left`).
* `ctll::exists_in` finds types that convert to the given one, `remove_item` removes only the type itself (`C77_fails_convertible`).
* `?` and `?+` after `(?:a??)` are dropped by `make_optional`: `(?:a??)?` prefers the empty match (`C75_fails_over_lazy`).
* `a >> b` and `a | b` of patterns with groups have two groups with the number 1 (`C57_fails_numbering`).
* In `(?<x>a) | (?<y>b)` the group `y` is stored in the group `x`: after "b" the name `x` has the text "b" and `y` is empty, and `\g{y}` in the second pattern fails (`C57_fails_names`).

## 8. Tests of model and theorems

* Conformance: 1116 assertions of `/repo/tests` (matching, searching, captures, pattern syntax, syntax trees, patterns given as
  types, Unicode properties, UTF-8, pattern literals) were translated by script into `Verif/Tests/`, where the build evaluates them in
  the model with `#guard`, from the pattern literal and the kind of the subject to the result. They are tests, not proofs. All
  agree except one assertion about parsing (tests/parsing.cpp:101, a reference to a group that does not exist), which runs
  the grammar without semantic actions.
* Mutation: `seeded/LOG.jsonl` lists deliberate mistakes introduced into the model in a scratch copy, one per line, with the
  claims they break and the theorems that no longer check.
