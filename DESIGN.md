# A Lean 4 model of fast-printf

## What is here

* `properties.jsonl`: the English properties C01...; `MANIFEST.json`: which theorems prove which.
* `lean/Verif/Model/*.lean`: the model. One definition per Java method; each cites file and lines in `/repo`.
* `lean/Verif/Spec/*.lean`: small independent specifications (C's printf rules, the format grammar,
  decimal values, "rounds to this double") that do not mention the model.
* `lean/Verif/Proofs/*.lean`: lemmas.
* `lean/Verif/Props/*.lean`: the property theorems, each with a concrete `example` that meets its
  hypotheses.
* `seeded/LOG.jsonl`: wrong programs tried against the theorems.

## Modelling decisions

* A Java `char` is a natural number, a `String` or published `char[]` a list of them. Surrogates and
  NUL are ordinary units. `(char) i` is reduction mod 2^16.
* `byte/short/int/long` arguments are bit vectors of the right width, `float/double` are their raw
  bits. `int` arithmetic on widths and indexes is done in `Int`, with an explicit wrap where the Java
  code can overflow (`-w` for a `*` width). `long` arithmetic in the double-to-decimal core is done
  on 64-bit bit vectors. Sums of sequence lengths are not wrapped in the main model. A rope can be longer
  than an `int` counts (one `Repeated` object has up to 2^31-1 units), so `Model/IntLengths` gives the same
  code again with `int` lengths, and C77 proves that both print the same whenever the line is no longer
  than a Java string can be.
* An exception is an `Except` error carrying the exception class and, for syntax errors, the index.
  Message texts are modelled apart from the rest: the template formatter (C43), syntax errors (C47, C75),
  `PrintfException`s (C76) and refused arguments (C90).
* Loops are structural recursions; the parser's mutual recursion gets a fuel argument equal to the
  length of the input plus one, and a theorem shows that this fuel never runs out (so the Java
  recursion terminates).
* Ropes keep their stored length field separate from their content, because the code can (and does,
  C22) store a wrong one.
* JDK services are parameters (`Env`), so the theorems hold for any behaviour of them:
  `DateTimeFormatter` (validity of a pattern and formatting), `Double.toString`, `Float.toString`,
  `Double.parseDouble`, `Character.digit`, `Instant.from`, user `toString()`, class names and identity
  hashes. The following JDK functions are modelled from their documentation: integer to string in bases
  8, 10, 16, `Integer.parseInt` and `Long.parseLong`, `BigDecimal` rounding (`HALF_UP`),
  `Double.toHexString`, `Math.multiplyHigh`, `Math.round`, `Instant.toEpochMilli`. Casts between `int`,
  `long`, `float` and `double`, and the `double` division and addition that turn a date into seconds, are
  modelled on the bits; `Proofs/Arithmetic.lean` shows that they round to nearest, ties to even.

## Plan per property

| id | model | proof |
|----|-------|-------|
| C01 C02 | Compiler, FastPrintfImpl.format | induction over the text |
| C03 C04 | Compiler with positions; separate inductive grammar | soundness + completeness + uniqueness; error index bound by induction |
| C05 | Compiler + engine | parse of a concatenation, then split of the run |
| C06 C07 | DefaultAppender.append over an argument list | induction over compiled pieces |
| C08 | Compiler.flags | permutations via set semantics of the parsed flags |
| C09 C10 | DefaultAppender, FormatContext.setWidth/setPrecision with 32-bit negation | case analysis, MIN_VALUE witness |
| C11 | FormatContext.toPatternString | parser run on the printed text |
| C12-C15 | IntForm wrappers, SeqFormatter.d/u/o/x | equality with a C specification; decode theorem |
| C16 C17 | SeqFormatter justification | rope refinement + list arithmetic |
| C18-C20 C37 C38 | SeqFormatter.s/c/p, traits | case analysis over traits |
| C21 C22 | Seq, Concat (stack iterator), SeqArray, leaves | refinement to lists, invariant over construction histories |
| C23-C25 | FormattedFPDecimal with explicit char arrays | exact integer/rational value of the printed digits |
| C26 | DoubleToDecimal, MathUtils tables, MultiplyHigh | table facts checked by the kernel for all 617 entries; Diophantine bound by Farey-pair certificates for all exponents; then the Schubfach argument |
| C27 | DoubleWrapper.hexLayout on raw bits | value of hex digits; half-even |
| C28 C29 | BigDecimalWrapper on (unscaled, scale) | exact integer arithmetic, witnesses for the defects; padding of %g exact through the pieces of the mantissa |
| C30 | SeqFormatter.nanOrInfinity | case analysis on bits |
| C31-C35 | FastPrintfImpl as a state machine (builder content and capacity per thread) | invariant over histories and interleavings; re-entrant witness |
| C36 | ArgsImpl | induction over put sequences |
| C39 | Compiler.dateTimeFormatter | equality with parity-of-quotes specification |
| C40-C46 | Utils, MultiplyHigh, FixedStringAppender, Seq | direct |
| C47 | PrintfSyntaxException | message as a list of characters |
| C48-C52 | traits, casts and `double` arithmetic | tables of readings in Spec/Readings.lean, one lemma per entry; nearest-double by a general rounding lemma |
| C53 | DoubleToDecimal string mode | byte buffer with its index, digit loop invariant; the documentation's text as a relation in Spec/DoubleText.lean, shown to be unique and to identify the double |
| C54 | SeqFormatter.s/p, every Traits class | table of texts as a relation; the length a cut rope reports is computed from its pieces (Spec/Cut.lean) |
| C55 | the whole of format | one big-step relation `Output` in Spec/Semantics.lean made of the relations of C10-C54; induction over the reading of the format string |
| C56 | the relation of C55 has one result | uniqueness of every text in Proofs/Determined.lean; induction over derivations |
| C57 | CharArray.equals, hashCode | loops against the documented polynomial and against equality of texts |
| C58 | LazySeq.str, CharArray.hash under races | interleavings of read, build, store, use with stale reads; invariant over all schedules |
| C59 | %e, %f, %g, %a of doubles | the grammar of `Double.parseDouble` as a reader of texts; 17 digits lose nothing; rounding intervals are disjoint |
| C60 | %f of short decimals and integers | two 15-digit decimals never share a rounding interval |
| C61 | %f against the binary value | sum of the two rounding errors |
| C62 | Length of the output | the texts of C55 measured one conversion at a time; induction over the pieces; a `BigDecimal` as the counterexample |
| C63 | Arrays under %s | Base64 as the same bits cut differently (value in base 64 against value in base 256); splitting at commas for injectivity |
| C64 | The target among the arguments | step-by-step model in which arguments are read against the current target; the only lazy leaf of `%s` is the uncut text of two or more characters |
| C65 | Printing keeps the order of numbers | the rounding intervals of two doubles do not overlap; rounding half up is monotone, also across powers of ten |
| C66 | Columns of numbers sort as text | digit strings of one length compare as their values; a shorter number has more padding, and padding sorts before digits |
| C67 | One question per directive | two argument lists agree on a list of questions; every step preserves agreement |
| C68 | CharSequences of foreign classes | by C67, reduced to a sequence or a string argument |
| C69 | Contexts made by hand | the directive that `toPatternString` writes is well formed iff the width is not 0 and it is not `%%` |
| C70 | Args.toString | the loop of `StringJoiner` and the engine's loop build the same text |
| C71 | deque of the rope iterator | run the iterator recording the size of its deque; induction over tree and deque; shape of chains of appends |
| C72 | call stack of the compiler | run the compiler recording the open calls; induction along the reading |
| C73 | arrays changed after wrapping | a heap of arrays and views on it; at rest it is the model of C21 |
| C74 | sequences that throw while written | a leaf that throws after a partial text; split the run at the failing piece |
| C75 | exactly the rejected formats and their exceptions | `Fault` and `TooLarge` (Spec/Faults.lean) against the error branches, step by step |
| C76 | what the `PrintfException`s say | sentences written out in `Says` (Spec/Complaints.lean); the refusals from C55, the templates by C43 |
| C77 | lengths are `int`s | `Model/IntLengths` against the main model, operation by operation; a bound on the leaves of every conversion; calls that fail compared through the readings that can fail; the overflow of `%f` worked out |
| C78 | `%f`, `%e`, `%g` of a `double` against C | C's rounding of the binary value as a relation (Spec/CFloat.lean); no shorter decimal lies between a `double` and its shortest decimal, so the roundings differ only at a final 5 or past the last digit |
| C79 | contract of the number forms | `signum()`, the default methods and the texts against the documentation of `NumberForm` and `IntForm` |
| C80 | characters, lines, columns | the alphabet of each conversion (Spec/Alphabet.lean), by cases on the relation of C55; composition by C05 |
| C81 | printed floats | widening (C49) and the error bounds of C61 against the gaps of binary32 (Spec/Single.lean) |
| C82 | `%#g`, `%a`, infinities and NaN against the C standard | the C rules as relations (Spec/CHex.lean) against C25, C27 and C30; `if and only if` |
| C83 | equal numbers print alike, whatever their types and representations | value of an argument (Spec/EqualNumbers.lean); printing is a function of it, by C09–C29 and the uniqueness of texts; exceptions as witnesses |
| C84 | a negative number prints like its absolute value but for the sign | relation between two texts (Spec/Mirror.lean), transported along the semantics of C55/C56 |
| C85 | which flags a directive heeds, and that the rules are exact | congruence of the formatter in the ignored flags (Proofs/FlagUse.lean); a kernel-evaluated table of all conversions and flag sets, lifted through C08 and the parser |
| C86 | printed numbers given back as text | C59 and C53 with the documented `parseDouble`; the tables of C48, C49, C50; exactly which texts of `%d` are integers for `parseLong` |
| C87 | MathUtils | bounds of log10 2 and log10 3/4 by comparing powers with up to 12 million bits in the kernel; then integer points between two lines, by a unimodular change of basis |
| C88 | `seq/*` with leaves of any class | the rope code written once more over an abstract leaf, with the contract of a leaf as hypothesis; equal to the main model for the library's leaves |
| C89 | `seq/*`, `subSequence` of slices | a history of operations is run in the model and, beside it, as a list of pieces with a reported length; both agree in every observation |
| C90 | `Preconditions`, the checks of `Seq`, `EmptySeq`, `LazySeq`, `FastPrintf`, `Args` | a second model whose exceptions carry messages and whose arguments can be null (`Model/Detail.lean`); forgetting the messages gives the main model |
| C91 | the floating-point conversions of all number types, and dates | the printed text is read back; each conversion is a rounding of magnitudes that keeps the order, whichever code did it (C23–C29, C49) |
| C92 | lines of columns of different kinds | each kind of column has a reader (C13, C14, C59, C18, C56); the separator is not in any column (C80) or the widths are exact (C16), so the line is cut where the columns end |
| C93 | `%s` of a `BigDecimal` | both notations have one shape (digits, point, exponent), which `new BigDecimal(String)` and `Double.parseDouble` read (C54, C59); in the plain notation it is the text of `%f` (C28) |
| C94 | objects of several types; methods that throw | the tests of `put` in order, against a ranking of what the object is; each question depends on one method, so C67 replaces the object by a simpler argument or gives the exception |
| C95 | arguments with side effects | a second model of `DefaultAppender` and the loops in which every method of an argument is a program on the state of the world (`Model/Live.lean`); the answers given on the occasion are frozen into ordinary arguments |
| C96 | `ObjectTraits` with effects | one method per question; frozen to an object of C94, then C95 |
| C97 | `BigDecimal` when `BigInteger` has a largest number | a second model in which every power of ten is checked against a parameter (`Model/BigLimits.lean`); only `setScale` can need one above the unscaled value; whole calls by induction over the pieces |
| C98 | `String.format` and the library print the same, except for a list of cases | the documentation of `java.util.Formatter` as a relation (`Spec/JavaFormatter.lean`); each rule against the tables of C55; each difference by a mark that padding and upper-casing keep (number of zeros, what follows the point or the `E`, length) |
| C99 | `%t` without a pattern prints ISO texts, from which the moment can be read | the calendar as a count of days (`Spec/Dates.lean`): each day number has one date (successor and predecessor of a date, then induction; the count grows along the order of dates); the texts are taken apart field by field |
| C100 | `seq/*` with composites of any class | composites that answer what they like, beside those of the library; an honest one is replaced by a joined sequence of its leaves, and the operations commute with that replacement, so that C88 applies |
| C101 | `%t{pattern}`: what it prints and for which arguments it throws | the pattern language as a function on the text (`Spec/Patterns.lean`), `java.time` a parameter that does this; a pattern with a reading has balanced quotes and no open brace, so the compiler takes all of it; texts of fixed fields compare like the lists of their numbers |
| C102 | what a target that is no `StringBuilder` is given, call by call | a target that remembers its calls; a pure list of calls for every leaf and rope; kinds of calls closed under the rope operations; every conversion keeps "no call is empty" and the upper-case ones and `double`s "every call is one character" |
| C103 | a `CharSequence` that is changed between being measured and being read | the leaf `lazy out n` with a text of another length, through padding, cutting, upper-casing and both ways of writing |
| C104 | targets that tell the three `append` methods apart and throw what they like | a second model of the writing loop over calls; erasing the method gives the first model; for `%s` of a `String` and for literals the calls themselves |
| C105 | which exceptions have a cause and a stack trace | the constructor called at each throw, and the tables of C55 and C75 for which throw is reached |
| C106 | an `Args` object changed during the call | the iterator of `ArrayList` with its fail-fast check, and the requests of C95; a directive stops at its first request after a change or does what it does in C95 |
| C107 | `Args` of the user's own class | iterators as programs; the same call with a recording iterator, with a list and with the `ArrayList` of C106 beside the state, compared step by step |
| C108 | what a result depends on besides the format and the arguments | two surroundings compared; which JDK call an argument needs for which reading, as a table; each entry shown necessary by two JDKs that differ in one answer |
| C109 | arguments and numbers of the user's own classes | every method of the argument and of its number forms is a program on a state (`Model/OwnForms.lean`); numbers that note their calls against a table of calls; ordinary arguments in this shape against the model of C95 |
| C110 | BigIntegers of the user's own subclass | every method of the `BigInteger`, and of the object that its `abs()` gives, is a program on a state (`Model/OwnBig.lean`); objects that note their calls against a table of calls; the printed text against the ordinary argument with these answers |
| C111 | The layouts of `FloatForm`, asked for directly | the layouts of the model (`Model/DoubleWrapper.lean`, `Model/BigDecimal.lean`) for every `int`; the value of the text as a rational (`PlainDecimal`, `Significand`) against the decimal of C26, rounded half up |
| C112 | Enabling assertions changes no call | the methods that contain `assert` statements given a second time with the parameter `ea` (`Model/Assertions.lean`), for every `double` and `int`, compared with the methods of the main model and inside whole calls |
| C113 | BigDecimals of the user's own subclass | every method of the `BigDecimal`, of the object that its `abs()` gives and of the one that `setScale` gives is a program on a state (`Model/OwnDec.lean`); objects that note their calls against a table of calls; objects that answer as a number does against that number |
| C114 | The version of the JDK changes no text | the methods that lead to `Math.multiplyHigh` and `StringBuilder.repeat` given a second time with a parameter for what the JDK has (`Model/Versions.lean`), compared with the ordinary ones for whole calls; a builder with a limited room for repeated characters |
| C115 | A `RefSlot` stands for ever for what it was made for | slots as objects on a heap with references (`Model/RefSlots.lean`), and the code outside the package as any sequence of calls with references it has got hold of; an invariant that the private marker is never handed out |
| C116 | `BigDecimal`s at the edge of the `int` scale | rounding worked out for every scale, with the carry that needs one more position; `%f` with `int` lengths beyond the cases of C77 |
| C117 | `FormattedFPDecimal.valueOf` called directly, with any `double` and any form | the rounded exponent as the decimal exponent of the value rounded half up |

## Trusted base

* The Lean 4.33 kernel, and the definitions of Mathlib used in statements (rational numbers, powers,
  lists).
* The axioms `propext`, `Classical.choice` and `Quot.sound`; nothing else. No `sorry`, no `native_decide`,
  no `bv_decide`, no axioms of our own. `decide +kernel` is used for the finite tables (617 powers of ten,
  the digit tables) and for concrete examples about doubles.
* The reading of the Java source: every model definition cites the lines it renders. The code was not run.
  As a check of that reading, 1302 formatting calls of the repository's own unit tests (format, arguments,
  expected text) are evaluated in the model and checked by the kernel in `lean/Verif/Conformance`, and so are
  the expectations of the tests of the compiler, the ropes, the number wrappers and the argument readings
  (about 240 further checks). All agree. Most rows were extracted from the test sources by a script. Where a
  test takes its expected text from `String.format`, the text was computed outside Java with exact decimals.
* The modelled JDK functions, listed under "Modelling decisions"; all other JDK services are arbitrary
  functions, so no theorem depends on what they return.
* Java semantics used without proof: evaluation order, integer wrap-around, exceptions propagate, a
  published `final` field is visible.

### Simplifications, by part

| part | modelled | not modelled |
|------|----------|--------------|
| parser (`Compiler`, `FormatContext`, `Specifier`) | everything, with error positions and the messages of the syntax errors (C47, C75) and of the `PrintfException`s (C76) | what stands in a stack trace (whether there is one, and the cause, is C105); messages of exceptions thrown by the JDK |
| engine (`FastPrintfImpl`, `DefaultAppender`) | everything; a run that fails part-way leaves its partial output, also of a sequence that throws while it is written (C74) | - |
| thread-local cache (C31-C33) | builder content, capacity, threads, interleavings of whole `acquire`/`release` steps | finer interleavings inside one step (each step touches only its own thread's slot) |
| ropes (`seq/*`) | lengths, iteration, slicing, upper-casing, lazy text, equality and hash codes, racing threads that fill the lazy fields (C58), arrays that their owner changes between calls (C73), lengths that overflow (C77), leaves of the user's own classes and other objects that implement `Seq` (C88), composites of the user's own classes (C100) | an `unfold` that throws, and own composites that answer differently each time; an array that changes during a call; running out of memory |
| integers | all wrappers | - |
| doubles | `DoubleToDecimal` (both the split and the string mode), `MathUtils` and `MultiplyHigh` at bit level; `FormattedFPDecimal` with explicit arrays; `%a` on raw bits | - |
| `BigDecimal` | `round`, `setScale` as documented, scale checks, `int` overflow in exponent arithmetic; the largest number of `BigInteger` in C97 only (elsewhere integers are unbounded) | `BigDecimal.toString` (a parameter; C93 is about those that do what the documentation says) |
| arguments (`ArgsImpl`, `traits/*`) | every class; object identity; arrays element by element (C63; the JDK's Base64 encoder and `Arrays.toString` as documented) | a `CharSequence` of a foreign class whose answers change between calls, except under `%s` and `%S` (C103; C68 has those that are stable); a subclass of `BigInteger` under a floating-point conversion, or returned by a subclass of `BigDecimal` (C110 and C113 have the others); a sequence that changes between `asSeq()` and the writing (methods that answer differently from call to call are in C95) |
| dates | pattern scanning and choice of formatter | `java.time` itself (a parameter; C99 and C101 are about those that do what the documentation says about ISO dates and about numeric patterns) |

### Conditions on theorems that look technical

* `ScaleOk n scale` (C28, C29, C46): `scale` and `scale - n` stay inside `int` (with a margin of 2). Every
  `BigInteger` qualifies. Without it the library computes exponents with wrapped `int`s; the witness
  `C46_scale_witness` shows an `ArithmeticException`. C116 says exactly when `%e` fails so, and what `%f` does.
* `Traits.WF`/`WellBehaved`/`Ordinary`: the argument's sequence reports its true length. All library-made
  arguments do; a user `Seq` built by the library does unless it was sliced (see C22), a user
  implementation of `FormatTraits` might not.
* Statements about texts of 2^31 units or more hold of the main model only; there the Java code departs from them
  (C77, finding 34). Up to that length C77 carries them over.
* `ParsesDoubles`, `KnowsDigits` (C86): what the JDK documents about `Double.parseDouble` and
  `Character.digit`. `documentedParse` in `Props/GiveBack.lean` shows that they can be met.
* `Directive.Plain`: no `*`. C09 reduces a star to the written number.

## How the hard proofs go

* **C26 (shortest decimal).** The library uses the Schubfach algorithm. The argument needs that no product
  `c * 2^q * 10^-k` comes too close to an integer or half-integer without being one. For each binary
  exponent a certificate (a Farey pair: two neighbouring fractions enclosing the ratio with denominators
  beyond the range of `c`) is stored in `FareyTable.lean` and checked by the kernel; `Farey.lean` turns it
  into the bound. `Rop.lean` shows that the rounded 126-bit product determines the comparison, `Choice.lean`
  the case analysis, `Schubfach.lean` the result, `Unique.lean` that the result is unique.
* **C23-C25.** C26 gives the decimal; `Rounding.lean` and `Decimal*.lean` show that the char-array code prints
  that decimal rounded half up.
* **C21, C22.** Ropes refine lists; `WF` says that the stored lengths are the true ones, `Sane` only that they
  are not larger. Slicing a composite rope keeps `Sane` but not `WF`: that is the length bug.
* **C31-C33.** Invariant over all histories of calls, including nested calls made from a user's `toString`.

## Findings

Departures from C's `printf`, from the README or from what a reader would expect. They are theorems or
examples in `Props/` under the property named; 14 and 16 are branches of the model.

1. `Concat.subSequence` stores a wrong length (C22). Visible as over-padding: `%10g` of
   `BigDecimal("1.50")` prints 12 characters, `%5.3s` of a composite `Seq` likewise (C16, C18).
2. Zero under `#`: `%#0Nx` and `%#0No` lose their zero padding, `%#.3o` prints `00`, `%#.0o` prints nothing
   (C prints `0`). `% .0d` of 0 prints nothing where C prints a space (C14, C15, C17).
3. A written width above 65536 is a `PrintfException`, not a syntax error; beyond `int` it is a syntax
   error (C04).
4. `%*d` with `Integer.MIN_VALUE` is accepted and pads nothing (C10).
5. The thread-local builder is not re-entrant: a `toString` that formats with the same instance corrupts the
   outer result (C32).
6. `BigDecimal`: `%g` chooses its style before rounding (999999.5 prints `1000000`); zeros keep their scale
   as exponent (`0e-02`), `%f` of `0E+3` prints `0000.000000`; `%.9e` of 1234567890 prints `e+9`; `%#g` of
   0.9999996 has a digit too many (C28, C29).
7. `%5%` and `%n` consume an argument; surplus arguments are ignored; NaN and infinities ignore the space and
   `0` flags (C06, C07, C30).
8. `toPatternString` of a context with width 0 does not read back (C11).
9. The first element of `joinIterator` is not converted leniently like the others (C44).
10. `%.0a` behaves as `%.1a`; `%a` with a precision of 13 or more prints subnormals with a leading 0, with a
    smaller one normalises them (C27).
11. `%#g` in exponent style is padded to at most 17 digits, and has no point for one digit (C25).
12. `%f` of a `double` rounds the *shortest decimal* half up, not the binary value: 0.15 under `%.1f` prints
    `0.2` (C prints `0.1`); the error is within a half unit of the shortest decimal (C23).
13. `%t` of a negative number throws `IllegalArgumentException`; an `int` is read as unsigned; a `BigInteger`
    is reduced to its low 64 bits (C40, C52). Seconds turn into milliseconds above 4294967295 (C40, C52).
14. `EmptySeq.subSequence` throws `IllegalArgumentException` where other sequences throw
    `IndexOutOfBoundsException` (C22 says only that it throws).
15. An object that is both a `CharSequence` and a `TemporalAccessor` is text for `put` and a date for
    `putDateTime`; a `FormatTraits` given to `put` stands for the value it wraps (C36).
16. Compiling a format of more than about 1.43e9 characters throws `ArithmeticException` (cache sizing, C35).
17. A `BigDecimal` with a scale at the edge of `int` makes `%e` throw `ArithmeticException` (C46).
18. An argument under `*` is narrowed silently: the `long` 4294967301 is the width 5 (C50). A `double` there is
    rounded half up, while `%d` truncates it (C48, C50).
19. `%d` of a temporal whose milliseconds overflow ends with `ArithmeticException`, not `PrintfException` (C48).
20. `%d` of a date counts milliseconds, `%f` seconds, `*` whole seconds; `*` rounds a `Date` before the epoch
    toward zero and an `Instant` down (C48-C50).
21. `%t` of a `java.sql.Date` or `java.sql.Time` ends with the `UnsupportedOperationException` of its
    `toInstant()`, although `%d` and `%f` accept it (C52).
22. A `BigDecimal` of twelve characters can make `%f` print two thousand million: nothing bounds the digits before
    the point. For other arguments a directive prints at most 65847 characters beside the argument's own text (C62).
23. `format(sb, …)` with `sb` itself as an argument under a padded `%ws` writes the padding and then everything,
    padding included, a second time; a `StringBuffer` ends with an `IllegalStateException` instead (C64).
24. A `CharSequence` of a foreign class is printed by `%s` from its characters and read by `%d` from its `toString()`;
    the two may differ (C68).
25. `FormatContext.create(flags, …)` answers an unknown flag character with a `NullPointerException`, not with a
    `PrintfException` (C69).
26. `Concat` says that its rearrangement keeps the tree "relatively shallow and right-leaning" for a long chain of
    appends. It does not: only the first leaf ends up on the left, the others form a chain leaning to the left, of
    the greatest possible height, and the iterator's deque grows to all but two of the leaves (C71). Since the
    traversal is a loop, this costs memory and no stack.
27. The compiler calls itself for every piece, so a format string with some tens of thousands of directives
    can exhaust the default Java stack: a `StackOverflowError` instead of a compiled format (C72).
28. `CharArray` caches its hash code although it does not copy the array: after a write, equal sequences can
    have different hash codes. Slices of one character are snapshots while longer slices are views (C73).
29. A `%s` that fails may leave its blanks and part of its text in the target, a `%S` or a `%.3s` of the same
    argument leaves nothing (C74).
30. The description of a repeated flag gives the name of the enum constant (`LEFT_JUSTIFY`), not the character that
    stands in the format; a number above the cap is reported only if the rest of its directive is well formed, and
    then without an index (C75).
31. A missing argument of `%i` is reported as one of `d` (C76).
32. `TemporalAccessorTraits` passes the `DateTimeException` as a format argument, not as the cause: it is appended in
    brackets to the message and otherwise lost (C76).
33. `%t` of a number or text that is no point in time is reported by the identity text of the internal `RefSlot`, which
    says nothing about the argument; `%a` of a `BigDecimal` is reported without the sign (C76).
34. Lengths overflow silently (C77). `%f` of `1E2147483640` ends with `IllegalArgumentException` and of `1E2147483647`
    with `IndexOutOfBoundsException`, before anything is written; in between, blanks are put in front although no width
    is asked for (an unset width counts as 0, which is more than a negative length). A rope of 2^32 units counts as
    empty, so appending it has no effect; the `upperCase` of a character appended to itself 31 times is refused.
35. `%f`, `%e` and `%g` are not those of glibc, against the README: they round the shortest decimal half up, glibc rounds
    the binary value correctly. `%.2f` of 1.005 prints `1.01` (glibc `1.00`), `%.0f` of 0.5 prints `1` (glibc `0`),
    `%.20f` of 0.1 has zeros after the first digit (glibc `0.10000000000000000555`). C78 says exactly when.
36. `DoubleToDecimal.split` of a negative number is a `NullPointerException` (there is no byte array for the sign). The
    library only calls it with an absolute value.
37. `NumberForm.signum()` is documented as the sign of the number, and `isZero()` as whether it is zero; for `-0.0`
    they give -1 and false, and NaN is positive (C79). Printing relies on it: the sign of `-0.0` is printed.
    `FloatLayout.toString()` of a hexadecimal layout puts `e` where `%a` puts `p`.
38. A `float` is widened before `%f`, `%e` and `%g` look at it, and its digits are those of the `double`: `%.17g` of
    `0.1f` prints `0.10000000149011612`, `%s` prints `0.1`. Six digits are always those the number was written with,
    nine always identify it (C81).
39. Where the library leaves ISO C apart from the rounding of finding 35 (C82): `%.0a` prints a digit after
    the point (C: none); `%#g` in the exponent style drops digits beyond those of the shortest decimal form, and the
    point if one digit is asked for (`%#.1g` of 1e10 prints `1e+10`, C `1.e+10`); `NaN` and `Infinity` are never what C
    prints in lower case. In upper case `NAN` and `INFINITY` are, except that `+` is ignored for NaN and the blank of
    the blank flag is missing.
40. `BigDecimal`s that are equal by `compareTo` need not print alike (C83): `%.9e` of `1234567890` is `1.234567890e+9` and of
    `123456789E+1` it is `1.234567890e+09`; `%8g` pads `2.50` to ten characters; `%#g` of `1E+7` and `1.0E+7` are `1e+07` and `1.0e+07`;
    zeros show their scale. And `999999.5` is `1e+06` under `%g` as a `double`, `1000000` as a `BigDecimal`.
41. `#` is never heeded by `%a` (C85), although in C it forces the point. The precision of `%a` is at least 1 here, so
    there is always a point when a precision is given; without one, `%a` and `%#a` print the same.
    The README's samples for `%e` and `%a` (`3.9265e+2`, `-0xc.90fep-2`) are not what the code prints.
42. The text of a padded `%5d` is refused by `%d`, `%x` and `*` (`Long.parseLong` does not skip spaces), while `%f` takes
    it (`Double.parseDouble` does). `INFINITY` and `NAN`, as `%E` prints them, are refused by the floating-point conversions (C86).
43. `Seq.concat` and `append` take any `Seq`. One that is neither an `AtomicSeq` nor an `AtomicSeqIterable` is accepted
    and counted in the length; when its characters are first asked for, the iterator throws `ClassCastException`. What
    lies before it can still be read, also by `%.1s` (C88).
44. What the wrong length of finding 1 does to later operations (C89). The slice `[0, 3)` of `ab`+`cd` reports one
    character. `charAt(1)` and `subSequence(0, 2)` of it throw, `subSequence(0, 1)` is `abc`, and `%.1s` and `%.2s` both
    print `abc`. A precision at or above the reported length does not cut at all.
45. Arguments that are null are refused by name nearly everywhere, but not as the only element given to `Seq.join` and
    not by `append` and `prepend` of the empty sequence, which return null. Other sequences answer `append(null)` with the
    JVM's own `NullPointerException`. `forArray(ch, 1, Integer.MAX_VALUE)` is refused with a negative end in the message,
    because the bounds are added as `int`s. The empty sequence refuses bounds with another exception type than all
    others (C90).
46. A point in time becomes a `double` by rounding its seconds first and adding the fraction afterwards. Beyond `2^53`
    seconds from 1970 the earlier of two points in time can print as the later one: -9007199254740993 s 750 ms prints
    as -9007199254740991, and -9007199254740992 s as itself (`C91_moments_witness`).
47. `%f` of a `BigDecimal` with a very large scale, such as `1E-2147483647`, throws `ArithmeticException` although the
    text is `0.000000`: `setScale` first computes a power of ten that is out of the reach of `BigInteger`. `%e` and `%g`
    of the same number are fine (C97).
48. The README names the differences from `String.format` only in part. C98 has the whole list for the directives that
    both take; among those it does not name: `null` under number conversions (Java prints `null`, the library throws),
    `%#x` and `%#o` of zero, negative `BigInteger`s under `%x`, the space flag with `Infinity`, zeros at the end under
    `%g`, `%c` of a supplementary code point, the zeros of `BigDecimal` with a scale, and the `+` in the exponent under
    `%a` (`C98_hex`).
49. Under `%t` the numbers below 2^32 are seconds and all others milliseconds, so milliseconds before 1970-02-19T17:02:47
    cannot be printed, and 5000000 and 5000000000 print the same text (C99). Texts with and without a fraction of a
    second do not sort (C99).
50. `AtomicSeqIterable` is public, and its documentation promises "correct and consistent behavior for any composite
    sequence", but a composite is read in two ways: alone by its iterator, inside a `Concat` by `unfold`. If a class
    makes the two differ, `%s` and `%9s` of the same object print different texts (C100). A composite whose iterator
    delivers nothing, as an empty one may, turns under `upperCase()` into a `SeqArray` without elements, and a
    concatenation with that throws `ArrayIndexOutOfBoundsException` (C100).
51. With a pattern, an `Instant` is not placed in a time zone, as it is without one. So `%t{yyyy-MM-dd}`, and every other
    pattern with a field of the date or the time of day, throws `DateTimeException` (the JDK's
    `UnsupportedTemporalTypeException`) for all numbers, `Date`s, `Calendar`s and `Instant`s, although `%t` prints them
    (C101). The README's example `%t{yyyy-MM-dd'T'HH:mm:ss.SSSZ}` works for an `OffsetDateTime` or `ZonedDateTime` only.
52. On a target that is no `StringBuilder`, padding, filled-in zeros, the whole field of every upper-case conversion and
    every character of a printed `double` are handed over by one `append(char)` each; `%65536s` of an empty string makes
    65536 calls (C102). Literal text, the text of `%s` and the digits of an integer are one call each.
53. A text that another thread changes between being measured and being read is printed by `%9s` with the wrong number of
    blanks and without an exception, and refused with an `IllegalStateException` by `%9S`, by `%.1s` and on a target that
    is no `StringBuilder` (C103).
54. Of all `PrintfException`s only those about a text that is no number have a cause and a stack trace. The constructor
    that takes values for the message switches the stack trace off, and `TemporalAccessorTraits` passes the
    `DateTimeException` to it as a value, so that it is quoted in the message but is not the cause. The compiler drops the
    `NumberFormatException` of an invalid width or precision (C105).
55. An argument whose `toString()` puts a value into the `Args` that are being printed makes the next directive that asks
    for an argument throw `ConcurrentModificationException`; as the last argument it goes unnoticed (C106). Where no
    argument is left, this comes instead of the `PrintfException` about a missing argument.
56. An `Args` of the user's own whose `iterator()` returns `null` is refused by the first directive, not at the start:
    `format(Appendable, Args)` has written the text before it by then (C107).
57. The sign of a finite floating-point number is asked by `isNegative()` under `%f`, `%e` and `%g`, but by `signum()` under
    `%a`. A `FloatForm` of the user's own that overrides `isNegative()` may print with a sign under one and without under
    the other (C109).
58. A subclass of `BigInteger` that overrides `toString()`, say to insert separators, changes what `%d` prints for
    positive numbers but not for negative ones: the wrapper keeps `abs()`, which is the object itself for the former and
    an ordinary `BigInteger` for the latter (C110).
59. The layouts of a `FloatForm` do not have the documented number of digits: `decimalLayout(2)` of 1.0 is `1` and
    `scientificLayout(2)` is `1.` with `+00`, a point without digits. `hexLayout(0)` keeps all hexadecimal digits. `NaN`
    and the infinities are laid out as `0`. The formatter pads, and asks for NaN first, so that none of this is printed
    (C111).
60. `decimalLayout` with a negative precision rounds a `double` to tens, hundreds and so on, but not a `BigDecimal`: 12
    with -1 is `10`, with -2 it is `12`, and with -3 it throws; 0.5 with -2 is `000` (C111).
61. `hexLayout` with a negative precision is guarded by an `assert` only. Without `-ea` it goes on with a shift distance
    that the language reduces modulo 64: -4 gives twelve digits, 1.0 with -1 is laid out as 2, and the largest `double`
    with -1 as 0. `NaN` and the infinities throw `AssertionError` or `IndexOutOfBoundsException`, depending on `-ea`
    (C112). No directive asks for any of these.
62. A subclass of `BigDecimal` that overrides `toString()` changes `%s` only, unlike one of `BigInteger` (58): the digits
    are those of `unscaledValue()`. The sign of `%f`, `%e` and `%g` is that of `signum()` and the digits those of `abs()`,
    so an `abs()` that returns the object itself prints `--5.0`, and a negative `signum()` of zero `-0.0`; `%d` takes its
    sign from `toBigInteger()`. A negative `precision()` ends `%e` with `IllegalArgumentException` (C113).
63. From JDK 21 on, an `OutOfMemoryError` while padding is written into a `StringBuilder` surfaces as a
    `RuntimeException` (seq/Repeated.java:44-46 catches `Throwable`); up to 20 it is the error itself, so code that
    handles one does not see the other (C114).
64. `%f` of an integer `BigDecimal` with more than 2147483648 digits before the point writes a number below one: the
    `int` subtraction that finds the point wraps around. `123456789E2147483640` comes out as `0.000...123456789000...`
    on an `Appendable`; `1E2147483648` is refused with an `IllegalArgumentException` (C116). `%.0e` prints
    `94E+2147483647` but not `95E+2147483647`.
65. `FormattedFPDecimal.valueOf` is public but only fit for non-negative numbers: a finite negative `double`, also
    `-0.0`, ends with a `NullPointerException`, while `-Infinity` and `NaN` are quietly taken as zero (C117). `printf`
    only passes absolute values; the Javadoc of `DoubleToDecimal.split` asks for them, that of `valueOf` does not exist.

## Mutation testing

`seeded/LOG.jsonl` has one line per wrong program: the definition changed, the change, the property it should
break, and the theorems whose proofs failed in a scratch copy. Where a change was not noticed, the theorem that was
strengthened is named. Proofs that fail are replaced in the scratch copy by a stub so that later files are
still checked; `first_failures` lists the first broken lemmas, `theorems_failed` the property theorems that no longer
stand.

## Not expressible in the model

* The stack limit of a JVM. The number of open calls of the compiler is modelled (C72).
* The code of `java.util.Formatter`. C98 compares with its documentation, written down from its Javadoc; where the
  JDK's code departs from that (the exponent that it prints for a `BigDecimal` zero is such a place), C98 says nothing
  about the JDK.
* Memory limits, performance, allocation behaviour, serialisation.
