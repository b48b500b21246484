{"id": "C01", "title": "Literal text is reproduced verbatim", "statement": "If a format string contains no '%', compiling it succeeds and formatting with any arguments returns exactly that string.", "quantifier": "every UTF-16 string without '%', every argument list", "why_tests_cant": "Infinitely many strings, including control characters, unpaired surrogates and text next to look-alike flag characters; tests sample a few literals.", "anchors": ["src/main/java/io/fastprintf/Compiler.java:forFixedString", "src/main/java/io/fastprintf/Compiler.java:parseNext", "src/main/java/io/fastprintf/appender/FixedStringAppender.java:append"]}
{"id": "C02", "title": "Doubling '%' is a complete escape", "statement": "For every string s, doubling each '%' in s gives a format string that compiles, and formatting it with any arguments (even none) returns s.", "quantifier": "every UTF-16 string, every argument list", "why_tests_cant": "Needs an induction over all positions of '%' in arbitrary text.", "anchors": ["src/main/java/io/fastprintf/Compiler.java:forPattern", "src/main/java/io/fastprintf/Compiler.java:forFixedString"]}
{"id": "C03", "title": "compile accepts exactly the documented grammar, with a unique reading", "statement": "compile(s) succeeds exactly when s is a sequence of literal runs, '%%' and directives %[flags][width][.precision]specifier[{pattern}] as the README describes, with no repeated flag, with width and precision at most 65536, and with a closed, non-empty and valid date pattern; the compiled pieces are the pieces of that reading, and the reading is unique.", "quantifier": "every format string", "why_tests_cant": "Acceptance and rejection over all strings is an if-and-only-if over an infinite language.", "anchors": ["src/main/java/io/fastprintf/Compiler.java", "src/main/java/io/fastprintf/Flag.java:valueOf", "src/main/java/io/fastprintf/Specifier.java:valueOf", "src/main/java/io/fastprintf/FormatContext.java:create"]}
{"id": "C04", "title": "Compilation is total and its failures are located", "statement": "compile terminates on every string. If it fails because of the text it throws PrintfSyntaxException whose index lies between 0 and the length of the format string; the only other failure is PrintfException for a width or precision above 65536.", "quantifier": "every format string", "why_tests_cant": "Out-of-range indexes and hangs hide in truncated or malformed inputs that tests do not enumerate.", "anchors": ["src/main/java/io/fastprintf/Compiler.java", "src/main/java/io/fastprintf/PrintfSyntaxException.java", "src/main/java/io/fastprintf/FormatContext.java:checkValue"]}
{"id": "C05", "title": "Formatting is compositional in the format string", "statement": "If formats a and b both compile (and a does not end in a bare %t/%T directive directly followed by '{' in b) then a+b compiles, and formatting a+b gives the output of a followed by the output of b run on the arguments a did not consume.", "quantifier": "every pair of format strings, every argument list", "why_tests_cant": "Pairs of arbitrary formats; the boundary between literal runs and directives is where parsers go wrong.", "anchors": ["src/main/java/io/fastprintf/Compiler.java:parseNext", "src/main/java/io/fastprintf/FastPrintfImpl.java:format"]}
{"id": "C06", "title": "Argument consumption is fixed by the format string", "statement": "A successful formatting call reads exactly as many arguments as the format has directives (other than '%%') plus '*' markers, in order; this number does not depend on the argument values.", "quantifier": "every compiled format, every argument list", "why_tests_cant": "Mixed dynamic width/precision sequences are unbounded.", "anchors": ["src/main/java/io/fastprintf/appender/DefaultAppender.java:append", "src/main/java/io/fastprintf/FastPrintfImpl.java:format"]}
{"id": "C07", "title": "Surplus arguments are ignored and missing arguments are always reported", "statement": "Adding arguments at the end never changes the output. Supplying fewer than the required number never produces a result: an exception is thrown.", "quantifier": "every compiled format, every argument list and every extension or truncation of it", "why_tests_cant": "Quantifies over all prefixes and extensions of argument lists.", "anchors": ["src/main/java/io/fastprintf/appender/DefaultAppender.java:append"]}
{"id": "C08", "title": "Flag order is irrelevant and repeated flags are rejected", "statement": "Permuting the flag characters of a directive gives a format with the same behaviour; repeating a flag makes compile fail with the index of the repeated flag.", "quantifier": "every directive, every permutation of its flags", "why_tests_cant": "Permutations times contexts; order-sensitivity is easy to miss by sampling.", "anchors": ["src/main/java/io/fastprintf/Compiler.java:flags", "src/main/java/io/fastprintf/Flag.java"]}
{"id": "C09", "title": "'*' means the same as writing the number", "statement": "A directive with '*' width and/or precision and int arguments w, p in 0..65536 prints what the directive with those digits written in it prints; a negative width means '-' with |w|; a negative precision means no precision. |w| or p above 65536 throws PrintfException. The one exception is w = Integer.MIN_VALUE, which is silently accepted and pads nothing.", "quantifier": "every directive, every pair of int arguments and every value argument", "why_tests_cant": "The int range, in particular the MIN_VALUE negation overflow, is not reachable by sampling.", "anchors": ["src/main/java/io/fastprintf/appender/DefaultAppender.java:append", "src/main/java/io/fastprintf/FormatContext.java:setWidth", "src/main/java/io/fastprintf/FormatContext.java:setPrecision"]}
{"id": "C10", "title": "Width and precision are capped", "statement": "No directive that reaches the formatting stage has a numeric width or precision above 65536, whether written in the format or passed through '*'; so the padding added by one directive is bounded.", "quantifier": "every format string and every argument list", "why_tests_cant": "It is a resource-safety invariant over all compile-time and run-time paths.", "anchors": ["src/main/java/io/fastprintf/FormatContext.java:checkValue", "src/main/java/io/fastprintf/Compiler.java:width", "src/main/java/io/fastprintf/Compiler.java:precision", "src/main/java/io/fastprintf/appender/DefaultAppender.java:append"]}
{"id": "C11", "title": "A compiled directive's text form compiles back to the same directive", "statement": "The string form of a compiled directive, fed to compile, yields a single directive with the same specifier, flags, width and precision (date patterns are not part of the string form).", "quantifier": "every directive obtained from a successful compile", "why_tests_cant": "Round trip over all contexts.", "anchors": ["src/main/java/io/fastprintf/FormatContext.java:toPatternString", "src/main/java/io/fastprintf/appender/DefaultAppender.java:toString", "src/main/java/io/fastprintf/Compiler.java:forPattern"]}
{"id": "C12", "title": "%d output equals the C definition, except one listed case", "statement": "For every integer and every combination of flags, width and precision, %d prints what the C standard prescribes; the output differs exactly when the value is 0, the precision is 0, the space flag is given without '+', and the width is at most 0 or unset (C prints one space, the library prints nothing).", "quantifier": "every integer value, every flag set, width and precision in range", "why_tests_cant": "32 flag sets times unbounded widths, precisions and values; the deviation is one corner.", "anchors": ["src/main/java/io/fastprintf/appender/SeqFormatter.java:d", "src/main/java/io/fastprintf/appender/SeqFormatter.java:57-80", "src/main/java/io/fastprintf/appender/SeqFormatter.java:sign"]}
{"id": "C13", "title": "%d prints the value: reading it back gives the argument", "statement": "Stripping padding and parsing the sign and decimal digits of %d output gives back the argument, for byte, short, int, long (including the minimum values) and BigInteger arguments, whenever it is not the empty rendering of 0 at precision 0. Without padding there is no superfluous leading zero.", "quantifier": "every value of each integer type, every context", "why_tests_cant": "2^64 longs and unboundedly many BigIntegers; MIN_VALUE special cases.", "anchors": ["src/main/java/io/fastprintf/number/LongWrapper.java", "src/main/java/io/fastprintf/number/IntWrapper.java", "src/main/java/io/fastprintf/number/ByteWrapper.java", "src/main/java/io/fastprintf/number/ShortWrapper.java", "src/main/java/io/fastprintf/number/BigIntegerWrapper.java", "src/main/java/io/fastprintf/appender/SeqFormatter.java:d"]}
{"id": "C14", "title": "%u, %o and %x print the two's complement reading", "statement": "For byte, short, int and long v of width n bits, %u, %o, %x print v mod 2^n in base 10, 8, 16; reading the digits back gives v mod 2^n, so the original value is recovered. For BigInteger they print v for v>=0 and throw PrintfException for v<0.", "quantifier": "every value of each integer type, every context", "why_tests_cant": "Whole value ranges, every sign-extension boundary.", "anchors": ["src/main/java/io/fastprintf/number/IntForm.java", "src/main/java/io/fastprintf/number/ByteWrapper.java", "src/main/java/io/fastprintf/number/ShortWrapper.java", "src/main/java/io/fastprintf/number/IntWrapper.java", "src/main/java/io/fastprintf/number/LongWrapper.java", "src/main/java/io/fastprintf/number/BigIntegerWrapper.java", "src/main/java/io/fastprintf/appender/SeqFormatter.java:formatUnsignedInteger"]}
{"id": "C15", "title": "%u, %o and %x output equals the C definition for non-zero values, and the zero deviations are exactly known", "statement": "For non-zero values %u/%o/%x print what C prescribes under every flag, width and precision. For zero the output equals C's except with '#': %#0Nx and %#0No lose zero padding, and %#.Po prints too few zeros.", "quantifier": "every unsigned value, every flag set, width and precision in range", "why_tests_cant": "The deviation needs a particular combination of value, two flags, width and precision.", "anchors": ["src/main/java/io/fastprintf/appender/SeqFormatter.java:formatUnsignedInteger", "src/main/java/io/fastprintf/appender/SeqFormatter.java:o", "src/main/java/io/fastprintf/appender/SeqFormatter.java:x", "src/main/java/io/fastprintf/appender/SeqFormatter.java:u"]}
{"id": "C16", "title": "Field width is a minimum and is exact when the text is shorter", "statement": "For every conversion that honours width, the output has max(width, n) characters where n is the number of characters the same conversion prints without width (0 flag aside). This fails for %g of BigDecimal values: see C29.", "quantifier": "every conversion, every context, every argument for which formatting succeeds", "why_tests_cant": "Universal over arguments and contexts; a wrong length bookkeeping shows only for specific composite values.", "anchors": ["src/main/java/io/fastprintf/appender/SeqFormatter.java:spaceJustify", "src/main/java/io/fastprintf/appender/SeqFormatter.java:57-80"]}
{"id": "C17", "title": "Justification only adds padding on the chosen side", "statement": "Widening a directive adds only spaces before the text, or after it with '-'; with the 0 flag (numeric conversions, without '-', and without a precision for the integer ones) it adds only zeros between sign/prefix and digits. Two exceptions are stated exactly: values that are not numbers (NaN, Infinity) get spaces in spite of the 0 flag, and %#0x, %#0o of zero get zeros up to the width less the length of the prefix that they do not print (2 or 1), and spaces before that. (Excluded are a composite rope argument whose text the precision cuts, treated by C18 and C22, and %g of a BigDecimal, treated by C16 and C29.)", "quantifier": "every context and argument", "why_tests_cant": "Position of padding must hold for all combinations.", "anchors": ["src/main/java/io/fastprintf/appender/SeqFormatter.java:spaceJustify", "src/main/java/io/fastprintf/appender/SeqFormatter.java:57-80"]}
{"id": "C18", "title": "%s truncates to a prefix and pads, nothing else", "statement": "%.Ps of a string s prints the first min(P,|s|) characters of s; without precision all of s; then pads to the width on the correct side; # + space and 0 flags have no effect.", "quantifier": "every string, flag set, width and precision", "why_tests_cant": "All strings, all precisions around the length boundary.", "anchors": ["src/main/java/io/fastprintf/appender/SeqFormatter.java:s", "src/main/java/io/fastprintf/traits/CharSequenceTraits.java:asSeq"]}
{"id": "C19", "title": "Upper-case conversions are the lower-case ones with ASCII letters raised", "statement": "%X, %E, %F, %G, %A, %S, %T print exactly the characters of %x, %e, %f, %g, %a, %s, %t with a-z replaced by A-Z and every other character, including non-ASCII, unchanged; they fail exactly when the lower-case one fails, with the same exception, except that a missing argument is reported under the letter actually written.", "quantifier": "every context and every argument", "why_tests_cant": "All strings (every code unit) and all numeric values.", "anchors": ["src/main/java/io/fastprintf/appender/SeqFormatter.java", "src/main/java/io/fastprintf/util/Utils.java:toUpperCase", "src/main/java/io/fastprintf/seq/AtomicSeqIterable.java:upperCase"]}
{"id": "C20", "title": "%c prints one UTF-16 code unit", "statement": "%c prints exactly one code unit plus padding: the low 16 bits of an integral argument, the character itself, or the first unit of a non-empty char sequence; an empty sequence and null are rejected with PrintfException.", "quantifier": "every argument and context", "why_tests_cant": "All 2^16 units and all integral values.", "anchors": ["src/main/java/io/fastprintf/appender/SeqFormatter.java:c", "src/main/java/io/fastprintf/traits/FormatTraits.java:asChar", "src/main/java/io/fastprintf/traits/CharSequenceTraits.java:asChar", "src/main/java/io/fastprintf/traits/NullTraits.java"]}
{"id": "C21", "title": "Rope operations denote the corresponding string operations", "statement": "Whatever sequence of wrap, repeat, append, prepend, concat, join and upper-case operations built a character sequence, its length, charAt, indexOf, isEmpty, toString, output to a StringBuilder and output to an Appendable agree with the plain string it denotes, and out-of-range indexes are rejected.", "quantifier": "every finite history of sequence operations", "why_tests_cant": "Trees of unbounded shape and depth; the iterator uses an explicit stack.", "anchors": ["src/main/java/io/fastprintf/seq/Seq.java", "src/main/java/io/fastprintf/seq/Concat.java", "src/main/java/io/fastprintf/seq/SeqArray.java", "src/main/java/io/fastprintf/seq/AtomicSeqIterable.java", "src/main/java/io/fastprintf/seq/StrView.java", "src/main/java/io/fastprintf/seq/CharArray.java", "src/main/java/io/fastprintf/seq/Repeated.java", "src/main/java/io/fastprintf/seq/LazySeq.java", "src/main/java/io/fastprintf/seq/EmptySeq.java"]}
{"id": "C22", "title": "subSequence of a composite sequence: right text, wrong length", "statement": "subSequence(i,j) of any sequence yields the characters i..j-1. The reported length is j-i exactly when the slice is empty, is the whole sequence or lies inside a single piece; for any other result, spanning two or more pieces, the reported length is always smaller than j-i (a defect: the length of the part in the last piece is reported).", "quantifier": "every composite sequence, every valid i<=j", "why_tests_cant": "Tests compare only toString(); the defect is universal over multi-piece slices.", "anchors": ["src/main/java/io/fastprintf/seq/AtomicSeqIterable.java:subSequence", "src/main/java/io/fastprintf/seq/SeqArray.java"]}
{"id": "C23", "title": "%f of a double is the half-up rounding of its shortest decimal", "statement": "For every finite double v and precision p, %.pf prints sign, an integer part without superfluous zeros and exactly p fraction digits (no point when p=0 unless '#'), denoting Double's shortest decimal rounded half-up to p places. The printed value therefore differs from the shortest decimal by at most half a unit of the last place.", "quantifier": "every finite double, every precision 0..65536", "why_tests_cant": "2^64 doubles times precisions; carries such as 9.99->10.0 are rare.", "anchors": ["src/main/java/io/fastprintf/util/internal/FormattedFPDecimal.java", "src/main/java/io/fastprintf/number/DoubleWrapper.java:decimalLayout", "src/main/java/io/fastprintf/appender/SeqFormatter.java:f", "src/main/java/io/fastprintf/appender/SeqFormatter.java:formatFractionalPart"]}
{"id": "C24", "title": "%e of a double is normalised and correctly rounded", "statement": "For every finite non-zero double, %.pe prints one non-zero digit, p fraction digits and a signed exponent of at least two digits, denoting the shortest decimal rounded half-up to p+1 significant digits; zero prints as zero with exponent +00.", "quantifier": "every finite double, every precision", "why_tests_cant": "Exponent changes on carry (9.99e5->1.00e6) over the full range.", "anchors": ["src/main/java/io/fastprintf/util/internal/FormattedFPDecimal.java:scientific", "src/main/java/io/fastprintf/number/DoubleWrapper.java:scientificLayout", "src/main/java/io/fastprintf/appender/SeqFormatter.java:e"]}
{"id": "C25", "title": "%g of a double picks the right style and drops only insignificant zeros", "statement": "For every finite double and precision P (0 means 1), %g denotes the shortest decimal rounded half-up to P significant digits; it uses the exponent form exactly when the exponent of the rounded value is < -4 or >= P; it prints no trailing fractional zero and no bare point unless '#'. With '#' the plain form has exactly P significant digits, while the exponent form has the smaller of P and the number of digits that were computed (a deviation from C), and that number is determined by the double: digits go down to the units for an integer below 2^52, and otherwise to the greatest power of ten not above the distance between the neighbouring midpoints.", "quantifier": "every finite double, every precision and flag set", "why_tests_cant": "The boundary between styles interacts with rounding.", "anchors": ["src/main/java/io/fastprintf/util/internal/FormattedFPDecimal.java:general", "src/main/java/io/fastprintf/number/DoubleWrapper.java:generalLayout", "src/main/java/io/fastprintf/appender/SeqFormatter.java:g"]}
{"id": "C26", "title": "The double-to-decimal core returns the shortest, closest decimal", "statement": "For every positive finite double v the decimal produced rounds (nearest, ties to even) back to v; no decimal that rounds to v has fewer digits (two digits being the minimum considered); and among those of that length none is closer to v. The last place of the digits (trailing zeros included) is the units for an integer below 2^52, and otherwise the greatest power of ten not above the distance between the neighbouring midpoints. Negative doubles go through the same digit selection, but split() called directly on a finite negative double throws NullPointerException (the library only ever passes absolute values). Zeros, infinities and NaN are told apart.", "quantifier": "all 2^63 positive finite doubles, normal and subnormal", "why_tests_cant": "The claim rests on a 617-entry table and 126-bit arithmetic; exhaustive testing of 2^63 inputs is impossible.", "anchors": ["src/main/java/io/fastprintf/util/internal/DoubleToDecimal.java:toDecimal", "src/main/java/io/fastprintf/util/internal/DoubleToDecimal.java:rop", "src/main/java/io/fastprintf/util/internal/MathUtils.java", "src/main/java/io/fastprintf/util/internal/MultiplyHigh.java"]}
{"id": "C27", "title": "%a is exact, and with a precision is rounded to nearest even", "statement": "For every finite double, %a without precision (or with precision >= 13) denotes exactly that double; with precision 1..12 it denotes the double rounded to that many hex digits, ties to even (precision 0 is treated as 1). BigDecimal arguments are rejected.", "quantifier": "every finite double, every precision", "why_tests_cant": "All significands and exponents, subnormals, carries into the exponent.", "anchors": ["src/main/java/io/fastprintf/number/DoubleWrapper.java:hexLayout", "src/main/java/io/fastprintf/number/DoubleWrapper.java:simpleHexLayout", "src/main/java/io/fastprintf/appender/SeqFormatter.java:a", "src/main/java/io/fastprintf/number/BigDecimalWrapper.java:hexLayout"]}
{"id": "C28", "title": "%f of a BigDecimal is exact half-up rounding", "statement": "For every BigDecimal or BigInteger (scale not within reach of int overflow, and the powers of ten needed within reach of BigInteger, see C97), %.pf prints the exact value rounded half-up to p places, with exactly p fraction digits, for any magnitude. The integer part has no superfluous zeros except for a zero with negative scale (0E+3 prints 0000).", "quantifier": "every BigDecimal (unscaled value and scale), every precision", "why_tests_cant": "Unbounded significands and scales; rounding may change the number of digits.", "anchors": ["src/main/java/io/fastprintf/number/BigDecimalWrapper.java:decimalLayout", "src/main/java/io/fastprintf/number/BigDecimalWrapper.java:decimalLayout0", "src/main/java/io/fastprintf/appender/SeqFormatter.java:f"]}
{"id": "C29", "title": "%e and %g of BigDecimal: value correct, with known defects", "statement": "%e of a non-zero BigDecimal prints it rounded half-up to p+1 significant digits in normalised form, and %g rounded half-up to P significant digits. Defects: a zero with non-zero scale prints a non-zero exponent; exponent 9 of ten laid out digits prints as +9 instead of +09; %g chooses its style before rounding so 999999.5 prints 1000000, and %#g of 0.9999996 has one digit too many; and %g with a width and without # is over-padded when zeros were stripped and a fraction is left: only the digits of the last piece of the mantissa are counted.", "quantifier": "every BigDecimal, every precision, width and flags", "why_tests_cant": "Style choice before rounding and the wrong length only show on particular digit patterns.", "anchors": ["src/main/java/io/fastprintf/number/BigDecimalWrapper.java:scientificLayout", "src/main/java/io/fastprintf/number/BigDecimalWrapper.java:generalLayout", "src/main/java/io/fastprintf/appender/SeqFormatter.java:stripTrailingZeros"]}
{"id": "C30", "title": "Non-finite values and negative zero", "statement": "NaN prints NaN, infinities print Infinity with a '-' or (with '+') '+' sign, under every floating conversion, padded with spaces only, whatever the precision, '#', '0' and space flags. A negative double, including -0.0, always prints a leading '-', a non-negative one never does.", "quantifier": "every double bit pattern, every floating conversion and context", "why_tests_cant": "2^53 NaN patterns and all contexts.", "anchors": ["src/main/java/io/fastprintf/appender/SeqFormatter.java:nanOrInfinity", "src/main/java/io/fastprintf/number/DoubleWrapper.java:signum", "src/main/java/io/fastprintf/appender/SeqFormatter.java:sign"]}
{"id": "C31", "title": "The thread-local buffer is invisible across calls", "statement": "With the thread-local cache enabled, for every history of formatting calls on a thread (including calls that threw part-way), each call returns what an uncached formatter returns, provided argument conversion does not call the same formatter; and a buffer larger than 65536 is replaced at the next call when the formatter's own capacity is at most 65536.", "quantifier": "every finite history of calls, failing calls included", "why_tests_cant": "History property: stale content after a failure or a very long output.", "anchors": ["src/main/java/io/fastprintf/FastPrintfImpl.java", "src/main/java/io/fastprintf/FastPrintf.java:enableThreadLocalCache"]}
{"id": "C32", "title": "The thread-local buffer is not re-entrant", "statement": "If an argument's toString() formats with the same cached formatter on the same thread, the outer result is corrupted: text already produced by the outer call is lost. Without the cache the result is correct.", "quantifier": "every format with text before the re-entrant argument", "why_tests_cant": "Needs a nested schedule of calls that tests do not build.", "anchors": ["src/main/java/io/fastprintf/FastPrintfImpl.java:format", "src/main/java/io/fastprintf/traits/ObjectTraits.java"]}
{"id": "C33", "title": "Concurrent formatting calls do not interfere", "statement": "For every interleaving of the steps of formatting calls made by any number of threads on any formatter instances (cached or not, shared or not), each call returns what it returns alone, provided that no argument conversion calls the same cached instance again (C32); and no thread can be kept from finishing by the others.", "quantifier": "every number of threads, every interleaving, every format and argument lists", "why_tests_cant": "Schedules are unbounded.", "anchors": ["src/main/java/io/fastprintf/FastPrintfImpl.java", "src/main/java/io/fastprintf/FastPrintf.java"]}
{"id": "C34", "title": "All output targets receive the same text after what they already hold", "statement": "format(args), format(StringBuilder,args) and format(any Appendable,args) produce the same characters; existing content of the target is kept in front; when formatting fails part-way the target holds its old content plus the output of the directives completed before the failure; an IOException surfaces as an unchecked exception.", "quantifier": "every format, argument list, prior content and failure point", "why_tests_cant": "Failure points are positions in arbitrary outputs.", "anchors": ["src/main/java/io/fastprintf/FastPrintfImpl.java:format", "src/main/java/io/fastprintf/seq/AtomicSeqIterable.java:appendTo"]}
{"id": "C35", "title": "Configuration does not change results", "statement": "enableThreadLocalCache and setStringBuilderInitialCapacity never change what format returns; each is idempotent (returns the same instance when nothing changes), leaves the original untouched and keeps the other setting; a non-positive capacity is rejected.", "quantifier": "every sequence of configuration calls", "why_tests_cant": "Sequences of configuration calls are unbounded.", "anchors": ["src/main/java/io/fastprintf/FastPrintfImpl.java:enableThreadLocalCache", "src/main/java/io/fastprintf/FastPrintfImpl.java:setStringBuilderInitialCapacity", "src/main/java/io/fastprintf/FastPrintfImpl.java:compile"]}
{"id": "C36", "title": "Args preserves the supplied values and their order", "statement": "values() returns the supplied values in insertion order for every mixture of put methods; Args.of of an array or iterable equals successive put calls; a null array becomes one null argument; null given to a nullable put becomes a null argument.", "quantifier": "every sequence of put calls", "why_tests_cant": "Arbitrary sequences of differently typed values.", "anchors": ["src/main/java/io/fastprintf/ArgsImpl.java", "src/main/java/io/fastprintf/Args.java"]}
{"id": "C37", "title": "null and primitives under %p, %s and other conversions", "statement": "A null argument prints null under %s and %p (with padding) and is rejected with PrintfException by every other value conversion. %p rejects primitives put with putX and accepts boxed values and objects.", "quantifier": "every context, every argument", "why_tests_cant": "Every conversion times every argument kind.", "anchors": ["src/main/java/io/fastprintf/traits/NullTraits.java", "src/main/java/io/fastprintf/traits/RefSlot.java", "src/main/java/io/fastprintf/appender/SeqFormatter.java:p"]}
{"id": "C38", "title": "%n and a decorated %% consume an argument", "statement": "'%n' prints nothing and '%5%' style directives print one '%' ignoring width, but each consumes one argument and fails without one, unlike '%%'.", "quantifier": "every flags/width/precision decoration, every argument list", "why_tests_cant": "All decorations; the source comment says the case is unreachable.", "anchors": ["src/main/java/io/fastprintf/appender/DefaultAppender.java", "src/main/java/io/fastprintf/Compiler.java:forPattern"]}
{"id": "C39", "title": "The closing brace of a date pattern is the first '}' outside quotes", "statement": "In %t{...} the pattern handed to the date formatter is the text up to the first '}' preceded by an even number of single quotes; no such brace, or an empty pattern, is a syntax error located inside the directive.", "quantifier": "every text following %t{", "why_tests_cant": "Quote nesting over arbitrary text.", "anchors": ["src/main/java/io/fastprintf/Compiler.java:dateTimeFormatter"]}
{"id": "C40", "title": "Numeric timestamps: seconds up to 2^32-1, milliseconds above", "statement": "Under %t a long or BigInteger (its low 64 bits) from 0 to 4294967295 is taken as epoch seconds, a larger one as epoch milliseconds, a negative one is rejected with IllegalArgumentException; an int is always taken as epoch seconds, read as an unsigned number. Consequently the mapping is not monotonic at the threshold.", "quantifier": "every int, long and BigInteger value", "why_tests_cant": "The whole long range.", "anchors": ["src/main/java/io/fastprintf/util/Utils.java:longToInstant", "src/main/java/io/fastprintf/traits/LongTraits.java:asTemporalAccessor", "src/main/java/io/fastprintf/traits/IntTraits.java:asTemporalAccessor"]}
{"id": "C41", "title": "The precomputed number length is right", "statement": "For every int and every long the length declared for its lazily rendered text equals the length of the rendered text, so padding and capacity are right.", "quantifier": "all 2^32 ints and 2^64 longs", "why_tests_cant": "Exhaustive only over all values; the loop relies on overflow of a negative power of ten.", "anchors": ["src/main/java/io/fastprintf/util/Utils.java:stringSize", "src/main/java/io/fastprintf/traits/IntTraits.java:asSeq", "src/main/java/io/fastprintf/traits/LongTraits.java:asSeq"]}
{"id": "C42", "title": "multiplyHigh fallback is the exact high word", "statement": "The pure-Java fallback returns floor(x*y/2^64) for every pair of signed 64-bit numbers, so results do not depend on which implementation is selected at start-up.", "quantifier": "all 2^128 pairs of longs", "why_tests_cant": "2^128 pairs.", "anchors": ["src/main/java/io/fastprintf/util/internal/MultiplyHigh.java:slowMultiplyHigh"]}
{"id": "C43", "title": "Error-message templates keep every argument", "statement": "The lenient template formatter replaces the first n '%s' by the first n arguments in order, leaves surplus placeholders as they are and appends surplus arguments in brackets; nothing is lost.", "quantifier": "every template, every argument list", "why_tests_cant": "All template/argument count mismatches.", "anchors": ["src/main/java/io/fastprintf/util/Utils.java:lenientFormat"]}
{"id": "C44", "title": "Join is the separator-interleaved concatenation", "statement": "The string joiner (Utils.join, also behind %s of an array of objects) gives the texts of the elements with the separator between consecutive ones: null elements are shown as null, an element whose toString() throws is shown by a substitute text, except that the exception escapes when it is the first element of an Iterable or Iterator. Null joins to nothing and any other value to its own text. The rope joiner (Seq.join, which has no separator) gives the concatenation of its pieces.", "quantifier": "every list, every separator", "why_tests_cant": "All list lengths.", "anchors": ["src/main/java/io/fastprintf/util/Utils.java:join", "src/main/java/io/fastprintf/seq/Seq.java:join"]}
{"id": "C45", "title": "Debug form of literals is unambiguous", "statement": "The debug string of a literal piece escapes quotes, backslashes and the control characters newline, return, tab, backspace and form feed, so that a reader gets the literal back whatever follows it: distinct literals have distinct debug strings, and none is the beginning of another.", "quantifier": "every pair of strings", "why_tests_cant": "Injectivity over all pairs.", "anchors": ["src/main/java/io/fastprintf/appender/FixedStringAppender.java:toString"]}
{"id": "C46", "title": "Only documented failures escape", "statement": "Formatting with any format string and any list of numbers, strings, characters, dates and plain objects succeeds, or throws PrintfSyntaxException or PrintfException; only a format with %t can also end with IllegalArgumentException for a negative timestamp or with the JDK's own date-time error, and only an Appendable target with its wrapped IOException. No internal index, arithmetic, null or illegal-argument error escapes from the padding, digit and rope code. (Outside: a BigDecimal whose scale is at the edge of int can make %e throw ArithmeticException, and one that needs a power of ten beyond BigInteger makes %f and %d throw it, see C97.)", "quantifier": "every format string, every list of arguments of the modelled types, every target", "why_tests_cant": "Universal over all paths of the formatting code.", "anchors": ["src/main/java/io/fastprintf/appender/SeqFormatter.java", "src/main/java/io/fastprintf/seq/Seq.java:repeated", "src/main/java/io/fastprintf/util/internal/FormattedFPDecimal.java"]}
{"id": "C47", "title": "A syntax error message points at the error", "statement": "For every rejected format string, the message of the exception shows the format verbatim and the error index; when the index lies inside the format, the last line is a caret preceded by exactly that many spaces.", "quantifier": "every rejected format string", "why_tests_cant": "Every format and every error position; tests check a few messages.", "anchors": ["src/main/java/io/fastprintf/PrintfSyntaxException.java:getMessage", "src/main/java/io/fastprintf/Compiler.java"]}
{"id": "C48", "title": "Arguments of other types under the integer conversions", "statement": "Under %d %i %u %o %x %X an argument that is not of an integral type prints exactly like the integral value it stands for: a float like the int, a double like the long obtained by rounding toward zero and saturating (NaN like 0); a BigDecimal like the BigInteger obtained by dropping its fraction; a CharSequence like the long it spells (optional sign, digits); another Number like its longValue; a Date, Calendar or TemporalAccessor like its milliseconds since the epoch, rounded down. A text that spells no long, null, a temporal without an instant and any other object end with PrintfException, and a temporal whose milliseconds overflow with ArithmeticException. Every argument except a caller's own FormatTraits is covered.", "quantifier": "every directive without a star, every argument of every type", "why_tests_cant": "All floats, doubles, texts and scales, including the saturation and parsing boundaries.", "anchors": ["src/main/java/io/fastprintf/traits/DoubleTraits.java:asIntForm", "src/main/java/io/fastprintf/traits/FloatTraits.java:asIntForm", "src/main/java/io/fastprintf/traits/BigDecimalTraits.java:asIntForm", "src/main/java/io/fastprintf/traits/CharSequenceTraits.java:asIntForm", "src/main/java/io/fastprintf/traits/ObjectTraits.java:asIntForm", "src/main/java/io/fastprintf/traits/TemporalAccessorTraits.java:asIntForm"]}
{"id": "C49", "title": "Arguments of other types under the floating-point conversions", "statement": "Under %f %e %g %a an argument that is neither a double nor a BigDecimal prints exactly like the number it stands for: an integer (also boolean and char) like the nearest double, ties to even; a float like the double of the same value; a BigInteger like the BigDecimal of scale 0; a CharSequence like the double that Double.parseDouble reads; another Number like its doubleValue; a Date or Calendar like its milliseconds rounded to a double and divided by 1000; a TemporalAccessor like the double sum of its seconds and nanoseconds/1e9. A text that is no number, null, a temporal without an instant and any other object end with PrintfException.", "quantifier": "every directive without a star, every argument of every type", "why_tests_cant": "Rounding to the nearest double over all longs and all instants.", "anchors": ["src/main/java/io/fastprintf/traits/LongTraits.java:asFloatForm", "src/main/java/io/fastprintf/traits/FloatTraits.java:asFloatForm", "src/main/java/io/fastprintf/traits/BigIntegerTraits.java:asFloatForm", "src/main/java/io/fastprintf/traits/CharSequenceTraits.java:asFloatForm", "src/main/java/io/fastprintf/traits/ObjectTraits.java:asFloatForm", "src/main/java/io/fastprintf/traits/TemporalAccessorTraits.java:asFloatForm"]}
{"id": "C50", "title": "Arguments of other types under a star", "statement": "An argument consumed by * as width or precision counts as an int as follows: an integral value as its low 32 bits; a float rounded half up and saturated to int; a double rounded half up and saturated to long, then its low 32 bits; a BigDecimal truncated, then its low 32 bits; a CharSequence as the int it spells; another Number as its intValue; a Date or Calendar as its whole seconds (rounded toward zero), a TemporalAccessor as its epoch second, both reduced to 32 bits. Everything else ends with PrintfException. In particular a long that does not fit an int silently becomes another width.", "quantifier": "every directive with one or two stars, every argument of every type", "why_tests_cant": "Narrowing and rounding over all values; tests pass small ints.", "anchors": ["src/main/java/io/fastprintf/appender/DefaultAppender.java:append", "src/main/java/io/fastprintf/traits/FormatTraits.java:asInt", "src/main/java/io/fastprintf/traits/LongTraits.java:asInt", "src/main/java/io/fastprintf/traits/DoubleTraits.java:asInt", "src/main/java/io/fastprintf/traits/ObjectTraits.java:asInt"]}
{"id": "C51", "title": "Every argument under %c", "statement": "%c prints a char as itself, the first UTF-16 unit of a non-empty CharSequence, and for any other argument the low 16 bits of the int it counts as under a star, padded with spaces to the width; an empty text, a TemporalAccessor, null and arguments that are no number end with PrintfException.", "quantifier": "every %c directive without a star, every argument of every type", "why_tests_cant": "All ints wrap into 16 bits; all types.", "anchors": ["src/main/java/io/fastprintf/appender/SeqFormatter.java:c", "src/main/java/io/fastprintf/traits/FormatTraits.java:asChar", "src/main/java/io/fastprintf/traits/CharSequenceTraits.java:asChar"]}
{"id": "C52", "title": "Every argument under %t", "statement": "%t reads an int as unsigned epoch seconds; a long, the low 64 bits of a BigInteger and the longValue of another Number as epoch seconds below 2^32 and as epoch milliseconds from there on; a Date or Calendar as its instant; a TemporalAccessor as itself. It prints what the JDK formatter for the given pattern prints, or without a pattern the ISO formatter for the type (an Instant placed in the system zone), padded with spaces, whatever the precision. A negative long ends with IllegalArgumentException; byte, short, char, boolean, floating-point numbers, texts, null and other objects end with PrintfException, as does a temporal type without a default formatter.", "quantifier": "every %t directive without a star, every argument of every type, every behaviour of the JDK formatters", "why_tests_cant": "All longs, including both sides of the seconds/milliseconds boundary, and an arbitrary formatter.", "anchors": ["src/main/java/io/fastprintf/appender/SeqFormatter.java:t", "src/main/java/io/fastprintf/traits/LongTraits.java:asTemporalAccessor", "src/main/java/io/fastprintf/traits/IntTraits.java:asTemporalAccessor", "src/main/java/io/fastprintf/traits/ObjectTraits.java:asTemporalAccessor", "src/main/java/io/fastprintf/traits/TemporalAccessorTraits.java:asTemporalAccessor"]}
{"id": "C53", "title": "The text of a double", "statement": "The library's own conversion of a double to a string (the text of a double wrapped as a FloatForm) ends normally for every double, within its buffer of 24 characters, with the text that the JDK 19 documentation of Double.toString prescribes: NaN, Infinity, -0.0 and so on; from 10^-3 to 10^7 the shortest decimal in plain form with at least one fraction digit; otherwise d.dddE\u00b1n with one nonzero digit before the point. Appending to a StringBuilder adds the same text. The text identifies the double: two doubles with the same text are the same, or both NaN.", "quantifier": "every one of the 2^64 double bit patterns", "why_tests_cant": "2^64 inputs; the digit extraction multiplies by fixed-point reciprocals.", "anchors": ["src/main/java/io/fastprintf/util/internal/DoubleToDecimal.java:toString", "src/main/java/io/fastprintf/util/internal/DoubleToDecimal.java:appendTo", "src/main/java/io/fastprintf/util/internal/DoubleToDecimal.java:toChars", "src/main/java/io/fastprintf/util/internal/DoubleToDecimal.java:exponent", "src/main/java/io/fastprintf/number/DoubleWrapper.java:toString"]}
{"id": "C54", "title": "Every argument under %s and %p", "statement": "%s prints the text of its argument, whatever the type: the characters of a String or CharSequence, the decimal digits of an integer, true or false, a char, null for null, and for float, double, BigDecimal, temporals and any other object the result of toString (Float.toString, Double.toString and so on). The text is cut to the precision and padded with spaces to the width. If toString throws, the call throws the same exception. A rope (Seq) prints its characters cut to the precision; the padding is exact unless the precision cuts a rope of several parts, when only the characters taken from the last part reached are counted. %p prints the class name, @ and the identity hash in hexadecimal, null for null, and refuses primitives with PrintfException.", "quantifier": "every %s and %p directive without a star, every argument of every type, every behaviour of toString and of the JDK's float and BigDecimal texts", "why_tests_cant": "All types, all texts including exceptions, and arbitrary toString behaviour at once.", "anchors": ["src/main/java/io/fastprintf/appender/SeqFormatter.java:s", "src/main/java/io/fastprintf/appender/SeqFormatter.java:p", "src/main/java/io/fastprintf/traits/ObjectTraits.java:asString", "src/main/java/io/fastprintf/traits/CharSequenceTraits.java:asSeq", "src/main/java/io/fastprintf/seq/Seq.java:wrap"]}
{"id": "C55", "title": "The meaning of a whole format string", "statement": "What a call of format prints, or the exception it ends with, is given by one relation that does not mention the library: literals stand for themselves, %% for %, each directive first takes the arguments for its stars (a negative width means left-justified, a negative precision none, numbers above 65536 are refused), then one argument, reads it according to the tables of C48-C54 and prints it as C's printf does, with the listed deviations; a missing argument ends with PrintfException; arguments left over are ignored; the first failure decides the exception.", "quantifier": "every format string that compiles, every list of arguments of any length and any types (big numbers with a scale inside the int range)", "why_tests_cant": "Format strings, argument lists and argument values are unbounded, and interact through stars and argument order.", "anchors": ["src/main/java/io/fastprintf/FastPrintfImpl.java:format", "src/main/java/io/fastprintf/appender/DefaultAppender.java:append", "src/main/java/io/fastprintf/appender/SeqFormatter.java", "src/main/java/io/fastprintf/Compiler.java:compile"]}
{"id": "C56", "title": "The tables have one result, and the call has it", "statement": "For every format string and covered arguments, whatever result (a text or an exception) can be derived from the relation of C55 is the result of the call; so the relation has exactly one result, and a call ends with r exactly if r can be derived.", "quantifier": "every format string of the grammar, every list of arguments (no user FormatTraits), every JDK service behaviour", "why_tests_cant": "Determinacy of a semantics is about all derivations; a table that allowed two outcomes would pass every test that checks the outcome the library happens to produce.", "anchors": ["src/main/java/io/fastprintf/FastPrintfImpl.java", "src/main/java/io/fastprintf/appender/DefaultAppender.java", "src/main/java/io/fastprintf/appender/SeqFormatter.java"]}
{"id": "C57", "title": "equals and hashCode of character arrays", "statement": "Two sequences made by Seq.forArray (or by slicing or upper-casing one) are equal exactly if they have the same characters, whatever arrays and offsets they view; the hash code is that of the String with the same characters; so equal ones have equal hash codes. A sequence of another class is never equal to them.", "quantifier": "all arrays, offsets, lengths and upper-case flags", "why_tests_cant": "The hash is a wrapping polynomial over arbitrary arrays, and equality must agree across views that share no memory.", "anchors": ["src/main/java/io/fastprintf/seq/CharArray.java:hashCode", "src/main/java/io/fastprintf/seq/CharArray.java:equals"]}
{"id": "C58", "title": "Racing threads filling a cached field do not disturb each other", "statement": "LazySeq.str and CharArray.hash are filled on first use without synchronisation. However many threads call the methods of one such object, in whatever order they move, and whichever of the values ever written (or the default) an unsynchronised read returns, every call returns what it returns on a fresh object used by one thread; and every call ends after at most five steps of its thread.", "quantifier": "every number of threads, every list of calls for each, every interleaving, every choice of stale values", "why_tests_cant": "Data races show only under particular interleavings and memory orderings.", "anchors": ["src/main/java/io/fastprintf/seq/LazySeq.java:getCachedString", "src/main/java/io/fastprintf/seq/CharArray.java:hashCode"]}
{"id": "C59", "title": "Printed doubles read back", "statement": "With enough digits a printed double reads back as itself: for every finite double, the text of %.pe with p >= 16, of %.Pg with P >= 17, of %.pf with p >= 325 (with p >= 16 for magnitudes from 1 on), and of %a without a precision or with one of at least 13, is a number in the grammar of Double.parseDouble, and rounded to nearest, ties to even, it gives the same double with the same sign, -0.0 included; so no two finite doubles print alike. The upper-case conversions, flags and widths make no difference.", "quantifier": "all finite doubles, all flags, widths and sufficient precisions", "why_tests_cant": "There are 2^64 doubles times the flag combinations; the claim is about every one of them.", "anchors": ["src/main/java/io/fastprintf/appender/DefaultAppender.java", "src/main/java/io/fastprintf/number/FloatLayout.java", "src/main/java/io/fastprintf/util/internal/DoubleToDecimal.java:toDecimal"]}
{"id": "C60", "title": "Short decimals and integers print as they were written", "statement": "If a decimal of at most 15 significant digits rounds to a normal double, then that double is printed as that decimal: %.pf prints the decimal rounded half up to p places, %.pe and %.Pg the decimal rounded half up to p+1 and P significant digits; the binary value does not show. A double that is an integer below 2^53 in magnitude is printed with the digits of that integer.", "quantifier": "all decimals of up to 15 digits in the normal range, all integers below 2^53, all flags, widths and precisions", "why_tests_cant": "It is about all 10^15 significands at every decimal exponent.", "anchors": ["src/main/java/io/fastprintf/util/internal/DoubleToDecimal.java:toDecimal", "src/main/java/io/fastprintf/number/FloatForm.java"]}
{"id": "C61", "title": "Error of %f, %e and %g against the exact value", "statement": "The number that %.pf prints for a finite double differs from the exact binary value of the double by at most half a unit of the last printed place plus half a unit in the last place of the double, and has its sign. Under %e and %g the same holds with half a unit of the last significant digit, relative to the number.", "quantifier": "all finite doubles, all flags, widths and precisions", "why_tests_cant": "An error bound over all doubles is a statement about exact rationals, not about samples.", "anchors": ["src/main/java/io/fastprintf/number/FloatLayout.java", "src/main/java/io/fastprintf/util/internal/DoubleToDecimal.java:toDecimal"]}
{"id": "C62", "title": "Length of the output", "statement": "A directive that prints a number, for any argument but a BigDecimal or BigInteger, prints at most max(width, precision + 311) characters (precision 6 when none is given). A call without such arguments, whose %s, %p and %t texts have at most n characters, returns at most 65847 + n characters per directive beyond the length of the format string. For a BigDecimal there is no such bound: %f of 1E+k prints k + 8 characters, for every k up to 2147483639.", "quantifier": "all directives, format strings and arguments; all k up to 2147483639", "why_tests_cant": "The bound has to hold for the worst double, precision and flag combination of each conversion; the failing case would need gigabytes of output.", "anchors": ["src/main/java/io/fastprintf/FastPrintfImpl.java:format", "src/main/java/io/fastprintf/number/FloatLayout.java", "src/main/java/io/fastprintf/number/BigDecimalWrapper.java"]}
{"id": "C63", "title": "Arrays under %s", "statement": "%s prints every Java array: a byte[] as its RFC 4648 Base64 text, a char[] as its characters, an array of another primitive type as the elements in square brackets separated by a comma and a space, an array of references likewise with null for null and a note for an element whose toString throws; then cut to the precision and padded to the width. For byte, char, boolean, short, int and long arrays the text determines the elements; for references it does not.", "quantifier": "all arrays of all component types, all plain %s directives", "why_tests_cant": "Base64 padding depends on the length modulo three and on every bit pattern; that no two arrays share a text is a statement about all pairs.", "anchors": ["src/main/java/io/fastprintf/traits/ObjectTraits.java:arrayToString", "src/main/java/io/fastprintf/util/Utils.java:joinArray"]}
{"id": "C64", "title": "The target among the arguments", "statement": "A StringBuilder or StringBuffer may be the target of format and an argument of the same call. Under %s and %S it prints what it holds when the directive is reached, including what the call has written so far. The exception: when its text has at least two characters, is not cut, and is padded on the left by %s, then in a StringBuilder the padding counts as part of the text and the whole content appears twice, and a StringBuffer makes the call fail with an IllegalStateException after the padding was written. When the target is not among the arguments, the call behaves as described by the other properties. A width or precision given as * is read from its argument when the directive is reached, also from the target, and a width of absolute value 1 to 65536 or a precision of at most 65536 then acts as if it were written in the format. Each piece of the format works on what the earlier ones left in the target and on the arguments that belong to it.", "quantifier": "all format strings, all argument lists with the target at any places, all contents", "why_tests_cant": "The outcome depends on which part of the lazy text is read before and which after the target changes; tests pass a fresh target.", "anchors": ["src/main/java/io/fastprintf/FastPrintfImpl.java:format", "src/main/java/io/fastprintf/seq/LazySeq.java", "src/main/java/io/fastprintf/traits/CharSequenceTraits.java"]}
{"id": "C65", "title": "Printing keeps the order of numbers", "statement": "For finite doubles x <= y and one directive %f, %e or %g without *, the number that the text of x denotes is at most the number that the text of y denotes, whatever the flags, width and precision.", "quantifier": "all pairs of finite doubles (zeros and subnormal numbers included), all flags, widths and precisions", "why_tests_cant": "It relates the digit generation of every two doubles, including neighbours whose shortest decimals have different lengths; 2^127 pairs.", "anchors": ["src/main/java/io/fastprintf/number/DoubleWrapper.java", "src/main/java/io/fastprintf/number/FloatLayout.java"]}
{"id": "C66", "title": "Columns of numbers sort as text", "statement": "Texts of the same length that one directive without - prints for two integers that are not negative (%d, and %u, %o, %x without #; precision not 0) compare under String.compareTo as the integers do, with zero or space padding. Under %f the same holds for doubles and for big numbers that are not negative, up to numbers that print alike.", "quantifier": "all pairs of integral, double, BigInteger and BigDecimal arguments (a zero BigDecimal of scale at least 0, scales not at the end of the int range); all flags but -, all widths and precisions", "why_tests_cant": "A statement about all pairs of values and all paddings.", "anchors": ["src/main/java/io/fastprintf/appender/SeqFormatter.java"]}
{"id": "C67", "title": "Each directive asks its argument one question", "statement": "A call depends on an argument only through the one FormatTraits method its directive calls (asInt for *, asIntForm for the integer conversions, asFloatForm for the floating ones, asTemporalAccessor for t and T, asSeq for s and S, asChar for c, ref for p, nothing for n): two argument lists with the same answers give the same text or exception and leave any target in the same state. If the first method a directive calls throws, the call ends with that very exception and a StringBuilder target holds exactly what the pieces before it wrote.", "quantifier": "every format string, every list of FormatTraits including user implementations, every builder and every Appendable", "why_tests_cant": "Independence from all other methods is a statement about all implementations of the interface.", "anchors": ["src/main/java/io/fastprintf/appender/DefaultAppender.java:formatterForSpecifier", "src/main/java/io/fastprintf/appender/SeqFormatter.java", "src/main/java/io/fastprintf/traits/FormatTraits.java"]}
{"id": "C68", "title": "CharSequences of foreign classes: characters for %s, toString for numbers", "statement": "For a CharSequence that is neither String nor Seq, %s, %S and %c print the text spelled by length() and charAt, whatever toString() does; the numeric conversions read the string toString() returns, whatever the characters are. So a class for which they differ prints two different things (witness: \"%s %d\" prints 12 34). If they agree, the argument behaves as a CharSequence with that text in every respect. Exceptions of the three methods end the conversions that call them; a negative length() is an IllegalArgumentException under %s.", "quantifier": "every foreign CharSequence with stable answers, every directive without *", "why_tests_cant": "All possible implementations of an interface.", "anchors": ["src/main/java/io/fastprintf/traits/CharSequenceTraits.java:asSeq", "src/main/java/io/fastprintf/seq/Seq.java:lazy"]}
{"id": "C69", "title": "Contexts made by hand: creation, pattern string and description", "statement": "FormatContext.create(flags, width, precision) succeeds exactly for flag characters and for numbers that are unset, * or 0 to 65536, and holds what was given; another character is a NullPointerException, another number a PrintfException. The pattern string of any such context and specifier compiles back to exactly that directive, except that width 0 reads back as the 0 flag (or as a repeated flag, a syntax error) and that the bare percent specifier reads back as the escape. FormatContext.toString names the flags that are set and gives width and precision in decimal, so it determines all three.", "quantifier": "every flag string, every two ints, every specifier", "why_tests_cant": "Round trip and injectivity over all contexts.", "anchors": ["src/main/java/io/fastprintf/FormatContext.java:create", "src/main/java/io/fastprintf/FormatContext.java:toPatternString", "src/main/java/io/fastprintf/FormatContext.java:toString"]}
{"id": "C70", "title": "Args.toString lists the arguments as %s prints them", "statement": "Args.toString() equals the result of formatting the same arguments with [%s, %s, ...] (as many as there are arguments), and throws what that call throws; if every argument has a text, it is the texts in square brackets separated by comma and space.", "quantifier": "every list of arguments that are not user implementations of FormatTraits; Seq arguments have consistent leaves and begin as their text does (a slice of an array rope may store a wrong positive length)", "why_tests_cant": "Relates two code paths for all argument lists.", "anchors": ["src/main/java/io/fastprintf/ArgsImpl.java:toString", "src/main/java/io/fastprintf/traits/FormatTraits.java:asString"]}
{"id": "C71", "title": "The rope iterator's deque is bounded by the leaves; appending one by one still fills it", "statement": "Whatever calls of the Seq API built a sequence, elementCount() is the number of leaves its iterator delivers, and the iterator's deque always holds fewer elements than that; the exact size is given by the shape of the tree. A single concatenation adds at most one to what its left part needs. Prepending non-empty leaves one by one keeps the deque at one element. Appending them one by one does not: contrary to the comments in Concat, n + 2 appended leaves give a tree of height n + 1, the greatest possible, and a deque of max(1, n) elements, one fewer than without the rearrangement, so from eight leaves on, and not before, the capacity the iterator asks for (a quarter of the leaves, at least five) is too small.", "quantifier": "All finite histories of sequence operations; all lists of non-empty leaves.", "why_tests_cant": "The deque is private and its size has no visible effect except memory; the growth has to be shown for chains of any length.", "anchors": ["src/main/java/io/fastprintf/seq/Concat.java:53-78", "src/main/java/io/fastprintf/seq/Concat.java:111-173", "src/main/java/io/fastprintf/seq/SeqArray.java:85-97"]}
{"id": "C72", "title": "The compiler's call stack grows with the number of pieces", "statement": "While FastPrintf.compile reads a format string, the methods parseNext, forPattern and forFixedString keep one call open for each literal run and two for each directive or %%, all at the same time, plus one at the end of the string. For every string, accepted or not, the open calls are at most one more than its characters; the strings %n%n...%n and %%%%...%% reach this bound, so no fixed stack is enough for all format strings.", "quantifier": "All format strings, with all their readings; all n for the strings that reach the bound.", "why_tests_cant": "A test shows a StackOverflowError for one string on one JVM setting; the exact linear growth needs all strings.", "anchors": ["src/main/java/io/fastprintf/Compiler.java:23-63", "src/main/java/io/fastprintf/Compiler.java:203-214"]}
{"id": "C73", "title": "Sequences over a char array follow the array, their hash codes do not", "statement": "Seq.forArray keeps the caller's array. If the owner writes to the array afterwards: slices of two or more characters and upper-cased sequences show the new characters; slices of one character or none keep the old ones; equals compares the characters of the moment; hashCode returns the value found by the first call that did not find 0, whatever is written later. So two equal sequences can have different hash codes. The bounds check of forArray(ch, start, length), done with a sum that may overflow, accepts exactly the ranges inside the array.", "quantifier": "All arrays, ranges, slices and contents before and after; all sequences of hashCode calls with arbitrary writes between them.", "why_tests_cant": "The view or snapshot question depends on the slice length and on when the array is written; a test fixes one history.", "anchors": ["src/main/java/io/fastprintf/seq/CharArray.java:58-100", "src/main/java/io/fastprintf/seq/CharArray.java:126-174", "src/main/java/io/fastprintf/seq/Seq.java:164-190"]}
{"id": "C74", "title": "What a target holds when a sequence throws while it is written", "statement": "A Seq.lazy of announced length n >= 2 whose action throws, or a CharSequence of a foreign class whose charAt throws, makes %s fail while writing. On a StringBuilder the earlier pieces, the blanks of a right-justified field and whatever the action had appended stay; on any other Appendable the earlier pieces and the blanks stay, one append call per blank, and if the target itself fails on a blank the caller sees that failure. If the precision cuts the text, or the conversion is %S, %d, %f or %c, the exception comes before anything of the directive is written. In general a failed run leaves the builder's old text, all pieces before the failing one, and what that one wrote; nothing is removed.", "quantifier": "All formats, positions of the failing directive, widths, precisions and flags; all announced lengths, partial texts, exceptions and targets.", "why_tests_cant": "The outcome depends on the interplay of justification, precision, case and kind of target; tests sample a few combinations.", "anchors": ["src/main/java/io/fastprintf/seq/LazySeq.java:66-174", "src/main/java/io/fastprintf/seq/AtomicSeqIterable.java:84-102", "src/main/java/io/fastprintf/appender/SeqFormatter.java:32-44", "src/main/java/io/fastprintf/appender/SeqFormatter.java:344-351", "src/main/java/io/fastprintf/FastPrintfImpl.java:79-119"]}
{"id": "C75", "title": "Exactly which formats are rejected, where, and what the exception says", "statement": "FastPrintf.compile(format) throws a PrintfSyntaxException with index i exactly if a well-formed beginning of the format is followed by '%' and a beginning of a directive that cannot go on at i, for one of these reasons: the format ends (after '%', after the flags, after the point, or before the conversion); a flag is repeated; a width or precision is above 2147483647; the conversion is unknown; a date pattern has no unquoted closing brace, is empty, or is rejected by DateTimeFormatter. It throws a PrintfException exactly if a well-formed beginning is followed by a directive that is well formed but for a number above 65536. Every format is accepted, faulty, or above the cap, and only one of these; the fault and its index are unique. The text at the index is the one the exception is about, the description is the sentence laid down for the fault and names it unambiguously, and the message consists of description, index and format, with a caret unless the fault is that the format ends.", "quantifier": "All formats, all answers of DateTimeFormatter about date patterns.", "why_tests_cant": "It is an equivalence over all strings: tests can show that some formats are rejected as described, not that these are all the reasons and that the first one in the text is the one reported.", "anchors": ["src/main/java/io/fastprintf/Compiler.java:42-201", "src/main/java/io/fastprintf/FormatContext.java:45-62", "src/main/java/io/fastprintf/PrintfSyntaxException.java:71-86"]}
{"id": "C76", "title": "What the PrintfExceptions say", "statement": "When a conversion other than %s and %t refuses an argument, and when * or %t finds an argument that is no number or no point in time, the message is the sentence laid down for that conversion and that kind of argument, and it quotes the argument as its own toString() shows it (a text in quotation marks; an array by class and hash code; an object whose toString throws as <class@hash threw exception>); exceptions to this are: %a of a BigDecimal or BigInteger quotes the absolute value, %t of other arguments than null, characters and plain objects shows only the internal slot. A width or precision above 65536 is reported by name and value. If the arguments run out in a directive, and those there are would do, the message names the conversion of that directive (d for %i), whether it is a * or the value that is missing.", "quantifier": "All conversions, arguments, argument lists and formats; all answers of the JDK and of toString().", "why_tests_cant": "The messages depend on the type of the argument and on the conversion, and the quoted text is arbitrary and may itself contain placeholders; tests of the library hardly look at messages.", "anchors": ["src/main/java/io/fastprintf/PrintfException.java:7-13", "src/main/java/io/fastprintf/traits/TemporalAccessorTraits.java:30-84", "src/main/java/io/fastprintf/traits/CharSequenceTraits.java:20-55", "src/main/java/io/fastprintf/traits/ObjectTraits.java:66-119", "src/main/java/io/fastprintf/traits/NullTraits.java:25-48", "src/main/java/io/fastprintf/traits/FormatTraits.java:92-94", "src/main/java/io/fastprintf/number/BigIntegerWrapper.java:52-57", "src/main/java/io/fastprintf/number/BigDecimalWrapper.java:174-176", "src/main/java/io/fastprintf/appender/DefaultAppender.java:90-117", "src/main/java/io/fastprintf/FormatContext.java:33-42"]}
{"id": "C77", "title": "Lengths are ints", "statement": "The lengths of sequences and the counts of their pieces are ints that wrap around. For every call whose output is no longer than a Java String can be (2147483647 chars), this makes no difference: the call prints what it would print if lengths were unbounded, and one that fails ends with the same exception and leaves the same in its builder. Beyond that it does: %f of a BigDecimal whose text would have 2147483648 chars ends with IllegalArgumentException; a longer one is printed with blanks in front that bring the length to 2^32, although no width is given, until the digits before the point alone are 2147483648, when the call ends with IndexOutOfBoundsException. The length() of a Seq, also one made by Seq.join, is the number of its chars mod 2^32, and indexOf gives the index of the first occurrence mod 2^32; appending or prepending a Seq of a multiple of 2^32 chars has no effect, any other appends its text; upperCase() of a char appended to itself 31 times ends with IllegalArgumentException.", "quantifier": "All formats, arguments (except user FormatTraits; a user Seq must report its true length and piece count and have fewer than 2147483647 pieces), JDK answers; for the overflow all directives %.pf with p >= 1 without flags and width, all BigDecimals of negative scale.", "why_tests_cant": "The sequences involved have billions of chars, which a test cannot hold as text; that nothing goes wrong below the limit is a statement about every intermediate sum.", "anchors": ["src/main/java/io/fastprintf/seq/Concat.java:65-102", "src/main/java/io/fastprintf/seq/Seq.java:252-289", "src/main/java/io/fastprintf/seq/AtomicSeqIterable.java:111-136", "src/main/java/io/fastprintf/appender/SeqFormatter.java:28-71", "src/main/java/io/fastprintf/appender/SeqFormatter.java:159-192", "src/main/java/io/fastprintf/number/BigDecimalWrapper.java:69-171"]}
{"id": "C78", "title": "%f, %e and %g of a double against C", "statement": "For a finite double, %f, %e and %g (without #) print the text that C prints (the exact binary value rounded to nearest, ties to even) except in two cases, and in both they differ from it. (1) The shortest decimal of the number has no digit past the last digit asked for, and the binary value rounds to something else there; this cannot happen while a unit of the last digit is larger than the gap between neighbouring doubles, for instance with at most 15 significant digits of a normal number. (2) The shortest decimal ends in a 5 just past the last digit, and the binary value is below it, or equal to it with an even digit before the 5: fast-printf rounds up, C does not (%.2f of 1.005 prints 1.01, C 1.00; %.0f of 0.5 prints 1, C 0). While the unit is larger than the gap, the two differ by at most one in the last digit. When enough digits are asked for to write the binary value in full, the texts agree exactly if the shortest decimal is exact.", "quantifier": "All finite doubles (double, Double), all flags (no # under %g), widths and precisions.", "why_tests_cant": "Agreement outside the two cases is a statement about all doubles at all precisions; it rests on the minimality of the shortest decimal, not on any finite sample.", "anchors": ["src/main/java/io/fastprintf/util/internal/FormattedFPDecimal.java:88-188", "src/main/java/io/fastprintf/util/internal/DoubleToDecimal.java:262-350", "src/main/java/io/fastprintf/number/DoubleWrapper.java:57-85", "README.md:21-25"]}
{"id": "C79", "title": "The number forms keep the NumberForm contract except at -0.0 and NaN", "statement": "IntForm and FloatForm of an argument answer as documented. signum() is -1, 0 or 1 as the number is negative, zero or positive, and isNegative(), isZero() and isPositive() agree with the number, for every byte, short, char, int, long, boolean, BigInteger and BigDecimal and for every finite double other than -0.0; for -0.0 signum() is -1, so isZero() is false and isNegative() true. An infinity has its own sign; NaN counts as positive. toDecimalString() is the absolute value, also for Integer.MIN_VALUE and Long.MIN_VALUE; toHexString(), toOctalString() and toUnsignedDecimalString() are the unsigned reading, and throw a PrintfException for a negative BigInteger. toString() of a wrapper is the signed decimal text; toString() of a FloatLayout joins mantissa and exponent by e, also for a hexadecimal layout.", "quantifier": "All integral arguments, all doubles, all BigDecimals (any scale), primitive or boxed; all layouts whose parts are well-formed sequences.", "why_tests_cant": "The deviations are single values among 2^64, and the contract is otherwise a statement about all values of eight types.", "anchors": ["src/main/java/io/fastprintf/number/NumberForm.java:17-52", "src/main/java/io/fastprintf/number/IntForm.java:76-104", "src/main/java/io/fastprintf/number/DoubleWrapper.java:41-54", "src/main/java/io/fastprintf/number/BigDecimalWrapper.java:178-185", "src/main/java/io/fastprintf/number/BigIntegerWrapper.java:8-58", "src/main/java/io/fastprintf/number/FloatLayout.java:23-34"]}
{"id": "C80", "title": "Which characters can be printed; lines and columns", "statement": "What a directive prints consists of spaces, the characters of its conversion (for %d + - and digits; %u digits; %o octal digits; %x hex digits and x; %f, %e, %g and %a digits, signs, the point, their exponent letter and the letters of Infinity and NaN; twins raised), and, only for %s, %c, %p and %t, characters of the text quoted from the argument. Consequently a character that no directive can print for its arguments occurs in the output exactly as often as in the literal text: a format with number conversions only never adds a line break or control character, and %s adds only those of its argument. Formats joined by a separator character print their outputs joined by it, each on the arguments the previous ones left; if no column can print the separator, splitting the line at it gives back exactly the columns. A line of %d columns (no precision 0) with such a separator determines the integers.", "quantifier": "All formats that compile, all arguments of the library's types (ropes well built, BigDecimal scales not at the edge of int), all separators other than % and {.", "why_tests_cant": "Absence of a character is a statement about every argument, flag, width and precision; injectivity is about all pairs of argument lists.", "anchors": ["src/main/java/io/fastprintf/appender/SeqFormatter.java:20-300", "src/main/java/io/fastprintf/appender/DefaultAppender.java:40-130", "src/main/java/io/fastprintf/FastPrintfImpl.java:40-100"]}
{"id": "C81", "title": "Printed floats", "statement": "A finite float printed with at least nine significant digits (%.8e, %.9g, or %.46f; %.8f from 1 on) gives a number that is nearer to this float than to any other, so it reads back as the same float, sign included, and no two floats print alike. Eight digits are not enough. A normal float that is the nearest to a decimal of at most six digits prints exactly that decimal with %.pe, %.Pg (so with the default %g) if all its digits and at most six are asked for, and with %.pf if that gives at most six digits.", "quantifier": "All 2^32 floats, primitive or boxed, all flags and widths, all decimals of at most six digits.", "why_tests_cant": "All pairs of floats and all decimals; the property lies between two number formats, binary32 and binary64, and the shortest decimal of the second.", "anchors": ["src/main/java/io/fastprintf/traits/FloatTraits.java:6-49", "src/main/java/io/fastprintf/util/internal/FormattedFPDecimal.java:28-36", "src/main/java/io/fastprintf/util/internal/DoubleToDecimal.java:100-400"]}
{"id": "C82", "title": "%#g, %a, infinities and NaN compared with the C standard", "statement": "For a finite double x: the text of %#g (any width, flags and precision, with # among the flags) equals the text ISO C requires exactly if x is zero, or the rounding does not deviate in the sense of C78 and in addition the plain style applies or P <= n and P is not 1, where P is the precision (6 if absent, 1 if 0) and n the number of decimal digits of the Java decimal form of x down to the last place of x. The text of %a is one that ISO C allows exactly if the precision is not 0 (with no precision it is exact, otherwise nearest with ties to even). For an infinite or NaN double no lower-case floating conversion prints a text that ISO C allows; the upper-case conversion prints such a text except when x is NaN and + is given, or when the blank flag is given without +, x is NaN or positive, and the flag - is given or the width is at most the length of the name (3 or 8).", "quantifier": "all doubles (bit patterns), all flags, widths and precisions of a directive without *", "why_tests_cant": "2^64 doubles times all flag, width and precision combinations; the equivalence names the exact set of deviating inputs, which no list of samples delimits", "anchors": ["src/main/java/io/fastprintf/appender/SeqFormatter.java:nanOrInfinity", "src/main/java/io/fastprintf/number/DoubleWrapper.java:generalLayout", "src/main/java/io/fastprintf/number/DoubleWrapper.java:hexLayout"]}
{"id": "C83", "title": "Equal numbers print alike", "statement": "Under %d and %i two arguments that stand for the same integer (a byte, short, char, boolean, int, long, BigInteger, or a float, double, BigDecimal, text or date read as that integer) print the same text, and under %u, %o, %x and %X if it is nonnegative. Two numbers of the same value (an integer type below 2^53 in absolute value, a BigInteger, a BigDecimal of any scale, of nonnegative scale if it is zero, or a double other than -0.0 taken at its shortest decimal) print the same text under %f; if nonzero, also under %e unless the precision is 9 or more and the absolute value lies between 10^9 - 1 and 10^10; and under %g without # and without a width if rounding to the digits asked for leaves the decimal exponent as it is, for two big numbers in any case. Two arguments that print alike under a conversion do so under its upper-case twin. The exceptions are real: negative integers of different widths under %x; BigDecimals that differ in scale under %.9e, %8g, %#g, and zeros; 999999.5 as double and BigDecimal under %g; a long above 2^53 and a BigInteger under %f.", "quantifier": "All pairs of arguments of all these types, all values, all BigDecimal scales whose first digit position fits an int, all flags, widths and precisions (without * ).", "why_tests_cant": "It relates every pair of representations of every number; the representations go through different code (integer digits, shortest double decimal, BigDecimal layout).", "anchors": ["src/main/java/io/fastprintf/number/BigDecimalWrapper.java:generalLayout", "src/main/java/io/fastprintf/number/DoubleWrapper.java:generalLayout", "src/main/java/io/fastprintf/appender/DefaultAppender.java:append"]}
{"id": "C84", "title": "A number and its negation", "statement": "Under %d and %i (a positive integer of any type and its negation of any type), and under %f, %e, %g and %a and their upper-case twins (a finite double, zero included, and the double with the sign bit set; a positive BigDecimal or BigInteger and its negation, except under %a; arguments that are read as such), both calls succeed and the two texts mirror each other: with the flag + they differ in one character only, + against -, with nothing but blanks before it; with the blank flag likewise, blank against -; with neither, and without a width, the negation prints - followed by the text of the number. So rounding, padding and the choice of style are the same for both signs. For the infinities the same holds, except that the blank flag has no effect. It does not hold for the unsigned conversions.", "quantifier": "All numbers of all argument types, all flags, widths and precisions (without *).", "why_tests_cant": "It is a relation between two calls for every number; each type and conversion handles the sign in its own place.", "anchors": ["src/main/java/io/fastprintf/appender/SeqFormatter.java:57-80", "src/main/java/io/fastprintf/number/DoubleWrapper.java:43-46", "src/main/java/io/fastprintf/number/BigDecimalWrapper.java:98-101"]}
{"id": "C85", "title": "Which flags a directive heeds", "statement": "Wherever a directive stands in a format, flags that it does not heed may be added or dropped without any effect on any call: the same text, or the same exception. Heeded are: - with a width, except under %n and %%; 0 with a width and without -, under the floating-point conversions, and under %d %i %u %o %x %X unless a precision is written as digits; + under %d %i and the floating-point conversions; the space there too, but only without +; # under %o %x %X %g %G, and under %f %F %e %E with precision 0 (or *). All unheeded flags may be dropped at once. The rules are exact: for every directive without date pattern and every flag they call heeded, whatever the other flags, there are a width and a precision of the same kinds (absent, zero, positive; anything for *) and an argument for which the flag changes the text. The one exception is - before a string cut to nothing (%-9.0s), where no flag has any effect.", "quantifier": "All formats that compile, all directives, all sets of flags, all argument lists (well-behaved user objects); for exactness all conversions and all 32 flag sets.", "why_tests_cant": "The flags are read in a dozen places of the formatter; that a combination is ignored is a statement about all arguments, and that the rules are exact is one about every cell of a table of conversions, flag sets, widths and precisions.", "anchors": ["src/main/java/io/fastprintf/appender/SeqFormatter.java:34-160", "src/main/java/io/fastprintf/appender/SeqFormatter.java:255-345", "README.md:217-226"]}
{"id": "C86", "title": "A printed number can be given back as text", "statement": "If Double.parseDouble and Character.digit do what their documentation says, then: a finite double printed with enough digits (as in C59; any flags, width and case), or by %s without a precision (when Double.toString is as documented), and the resulting text passed as a String, another CharSequence or a rope to any floating-point directive, prints exactly like the double itself; in particular the same directive prints the same text again. The lower-case conversions do this for the infinities and NaN too, but what the upper-case ones print for them is refused with PrintfException. The text of %d (%i) of an integer, or of %u, given to an integer conversion prints like the long of that value (for %u: of the unsigned reading), and stands for that number under *, exactly if it contains no space, is not the digitless text of a zero with precision 0, and the value is in the range of long (of int for *); otherwise the call throws PrintfException. Under floating-point conversions the text of %d prints like the integer itself, spaces or not, unless that is a BigInteger or the text has no digits.", "quantifier": "all doubles, all integers, all pairs of directives without a star, all flags, widths and sufficient precisions; all texts in any CharSequence", "why_tests_cant": "It relates two calls over every double and every pair of directives; tests print a number once and compare with a literal.", "anchors": ["src/main/java/io/fastprintf/traits/CharSequenceTraits.java", "src/main/java/io/fastprintf/appender/DefaultAppender.java", "src/main/java/io/fastprintf/number/FloatLayout.java", "src/main/java/io/fastprintf/number/IntForm.java"]}
{"id": "C87", "title": "The arithmetic helpers keep the contracts in their comments", "statement": "MathUtils.flog10pow2(e) is the floor of log10(2^e) for |e| <= 6432162, flog10threeQuartersPow2(e) that of log10(3/4 * 2^e) for -3606689 <= e <= 3150619, flog2pow10(e) that of log2(10^e) for |e| <= 1838394, in the wrapping arithmetic of int and long; at the next exponent on either side of each range the result is wrong, so the ranges are the largest possible. The constants behind them are floor(log10(2) * 2^41), floor(log10(3/4) * 2^41) and floor(log2(10) * 2^38). For K_MIN <= k <= K_MAX, g1(k) and g0(k) are the upper and lower 63 bits of floor(b) + 1, where 10^-k = b * 2^r, 2^125 <= b < 2^126 and r = flog2pow10(-k) - 125. For other ints k they throw ArrayIndexOutOfBoundsException, except for k >= 2147483324 and k <= -2147483356, where the index wraps round into the table. pow10(e) is 10^e for 0 <= e <= 17 and throws otherwise.", "quantifier": "all exponents in the documented ranges (over 12 million for the first), all ints for the tables", "why_tests_cant": "The comments give ranges of millions of exponents whose correctness depends on how well two constants approximate logarithms; the near misses lie at a few exponents only, and comparing needs numbers of two million digits.", "anchors": ["src/main/java/io/fastprintf/util/internal/MathUtils.java:45-79", "src/main/java/io/fastprintf/util/internal/MathUtils.java:709-789"]}
{"id": "C88", "title": "Sequences over leaf classes of the user's own", "statement": "Seq.concat, Seq.join, append, prepend and upperCase over leaves of any class that implements AtomicSeq as documented give a sequence that behaves like the string of the leaf texts side by side in length, isEmpty, charAt, indexOf, startsWith, toString and both appendTo methods. subSequence of it has the right characters and reports the length of the part taken from the last leaf reached (the whole: its own length); %s and %S print it cut by the precision and padded by that length. If the sequence contains a Seq that is neither a leaf nor a composite, its length is still the sum and everything before that object can be read and sliced, while toString, appendTo, upperCase, and a charAt, indexOf or subSequence that gets as far as the object throw ClassCastException. The library's own leaf classes meet the contract.", "quantifier": "every leaf type with its methods, every set of leaves that meet the contract, every history of operations, every index pair, flag set, width and precision", "why_tests_cant": "User classes cannot be enumerated; the claim is about every class that meets the contract and every history over it.", "anchors": ["src/main/java/io/fastprintf/seq/Seq.java:26-405", "src/main/java/io/fastprintf/seq/AtomicSeq.java:3-19", "src/main/java/io/fastprintf/seq/AtomicSeqIterable.java:32-136", "src/main/java/io/fastprintf/seq/Concat.java:65-173", "src/main/java/io/fastprintf/seq/SeqArray.java:40-97", "src/main/java/io/fastprintf/appender/SeqFormatter.java:344-351"]}
{"id": "C89", "title": "Sequences that were cut any number of times show exactly what is predicted of them", "statement": "Take any history of sequence operations: leaves, concat, append, prepend, join, upperCase, and subSequence(i, j) of anything built before. The history throws exactly when an argument is out of range, where the range of subSequence is the length that the sequence reports. Otherwise the result consists of predictable pieces and reports a predictable length: subSequence(i, j) with i = j is empty; from 0 to the reported length it is the same sequence with all of its characters; otherwise it has the parts of the pieces that lie in [i, j) and reports the length of the last part alone. toString, writing out, indexOf and startsWith use all the characters; charAt throws IndexOutOfBoundsException from the reported length on; isEmpty is right. The reported length is right exactly when the slice is empty, everything, or within one piece. %s and %S cut such an argument only if the precision is below the reported length, and pad by the reported length; every other conversion except %p, and every *, reads all of its characters as if it were a String.", "quantifier": "for all histories of sequence operations including nested slices, all slice bounds, all %s and %S directives with any flags, width and precision, all other directives except %p, all arguments after it", "why_tests_cant": "Slices of slices, joined and upper-cased again, form an infinite family, and a wrong length only shows in what is done with the result later.", "anchors": ["src/main/java/io/fastprintf/seq/AtomicSeqIterable.java:32-57", "src/main/java/io/fastprintf/seq/AtomicSeqIterable.java:62-136", "src/main/java/io/fastprintf/seq/SeqArray.java:20-60", "src/main/java/io/fastprintf/appender/SeqFormatter.java:344-351", "src/main/java/io/fastprintf/traits/CharSequenceTraits.java:9-77"]}
{"id": "C90", "title": "Refused calls: which exception, and what its message says", "statement": "charAt and subSequence of any sequence built by any history of operations either succeed or throw IndexOutOfBoundsException with the message \"index: i, size: n\" or \"start: i, end: j, size: n\", where n is the length that the sequence reports; the empty sequence instead gives the index alone, and for subSequence throws IllegalArgumentException without a message. A null argument of wrap, forArray, lazy, concat, join, map, compile, format, Args.of or of the elements of a joined list of two or more throws NullPointerException \"Argument 'name' cannot be null\", and the first null argument is the one named. repeated, lazy, setStringBuilderInitialCapacity, createWithExpectedSize and dates given as negative numbers throw IllegalArgumentException with fixed messages. A lazy sequence of the wrong length throws IllegalStateException with both lengths. forArray(ch, start, length) adds as int: no call out of range is let through, but the message shows the sum that wrapped round. Null is not refused as the only element of a joined list nor by append and prepend of the empty sequence, which return it. Apart from the messages the results are those of the model that the other properties are about.", "quantifier": "for all histories of sequence operations, all int indexes and bounds, all lists with a null element, all numbers", "why_tests_cant": "Tests usually check the type of an exception for one or two calls. Whether every out-of-range pair is refused, including those whose int sum overflows, and whether the numbers in the message are always those of the call, are statements about all inputs.", "anchors": ["src/main/java/io/fastprintf/util/Preconditions.java:9-57", "src/main/java/io/fastprintf/seq/Seq.java:102-267", "src/main/java/io/fastprintf/seq/Seq.java:349-352", "src/main/java/io/fastprintf/seq/EmptySeq.java:11-45", "src/main/java/io/fastprintf/seq/LazySeq.java:70-82", "src/main/java/io/fastprintf/FastPrintfImpl.java:128-138"]}
{"id": "C91", "title": "Numbers of all types keep their order when printed", "statement": "Under one floating-point directive without * the text of the smaller number never denotes the greater number (as Double.parseDouble reads it), whatever the flags, width and precision. Under %f, %e, %g and their upper-case forms this holds for any two arguments, each a BigInteger, a BigDecimal of any scale, or anything taken as a finite double, comparing big numbers by their value and doubles by their shortest decimal. Under all eight conversions, %a and %A included, it holds for any two of the integer types, floats and doubles compared by value, for two Dates or Calendars compared by time, and for two java.time points in time within 2^53 seconds of 1970. Beyond that range an earlier point in time can print as the later one, and a double compared with a BigDecimal by its exact value can print on the wrong side of it.", "quantifier": "All pairs of arguments of these types, all values, all BigDecimal scales whose first digit position fits an int, all flags, widths and precisions.", "why_tests_cant": "It relates every two numbers of every two types; neighbours are rounded by different code to decimals of different lengths, and %a rounds ties to even.", "anchors": ["src/main/java/io/fastprintf/number/BigDecimalWrapper.java", "src/main/java/io/fastprintf/number/DoubleWrapper.java", "src/main/java/io/fastprintf/number/FloatLayout.java", "src/main/java/io/fastprintf/traits/TemporalAccessorTraits.java:28-36"]}
{"id": "C92", "title": "Values in the columns of a line can be read back", "statement": "Take a line of columns: integers under %d or %i, their unsigned readings under %u, %o or %x (no precision 0), finite doubles under %e, %g, %f or %a with enough digits to tell all doubles apart, texts under %s that are not cut and have no space on the padding side, characters under %c; any flags and widths. With one separator character between the directives that is no letter, digit, space, sign, point, % or { and is in none of the texts, format(...) returns a line that splits at the separator into exactly one text per column, and each value is read back from its text: a parsed integer, the double bit for bit (-0.0 too), the text without its padding. Two calls that return the same line were given the same values. The same holds without any separator if every directive has a width that its text does not exceed: then the line has exactly the sum of the widths as its length and is cut at the widths.", "quantifier": "All lists of such directives of any length, all values, all separators, any number of further arguments.", "why_tests_cant": "The number of columns and the values are unbounded, and it is a statement about every two calls.", "anchors": ["src/main/java/io/fastprintf/FastPrintfImpl.java", "src/main/java/io/fastprintf/appender/DefaultAppender.java", "src/main/java/io/fastprintf/Compiler.java"]}
{"id": "C93", "title": "%s of a BigDecimal prints its documented text, and gives the number back", "statement": "If BigDecimal.toString does what the JDK documents (the digits of the unscaled value; with a point if the scale is not negative and the first digit is at most six places behind the point, else with one digit before the point and E with a signed exponent), then %s of any BigDecimal prints that text, cut to the precision and padded with spaces, for every scale of the int range. Without a precision, new BigDecimal(String), as documented, reads the output without its padding back to the same unscaled value and scale, so two BigDecimals that print alike under %s are equal in the sense of equals (1.0 and 1.00 print differently); read as a number the text is the exact value; a BigDecimal of scale 0 prints like the BigInteger. Where the text has no exponent, %s prints the same as %f with the scale as its precision. Handed over as a String, the text prints under the floating-point conversions like the double nearest to the number.", "quantifier": "All unscaled values and scales, all widths and flags, all precisions where one is allowed.", "why_tests_cant": "BigDecimals have unboundedly many digits and 2^32 scales, and injectivity is about every two of them.", "anchors": ["src/main/java/io/fastprintf/traits/BigDecimalTraits.java", "src/main/java/io/fastprintf/appender/SeqFormatter.java", "src/main/java/io/fastprintf/number/BigDecimalWrapper.java"]}
{"id": "C94", "title": "Objects that are several things at once, and methods that throw", "statement": "put(Object) takes an object of a user's class for the first of the things that it is: a CharSequence, a BigInteger or BigDecimal, a TemporalAccessor, a FormatTraits, then a Number, Date or Calendar; everything else it is does not matter. So an object that implements CharSequence prints as its text under every conversion, even if it is also a Number or implements FormatTraits. putCharSequence, putBigInteger, putBigDecimal and putDateTime take it as the type they name. A Number is asked longValue() by the integer conversions and %t, doubleValue() by the floating-point conversions, intValue() by %c and *, toString() by %s; a Date getTime() except by %t, which asks toInstant(); a Calendar getTimeInMillis(). In every format and at every place it can be replaced by the long, double, int, date or point in time that this one method returns. If that method throws (a Calendar that is not lenient with wrong fields does), the exception ends the call with the output of the earlier directives in the builder; a method that is not asked may throw without effect.", "quantifier": "All objects by what they extend and implement and by what their methods return or throw, all formats, all places of the object in the argument list.", "why_tests_cant": "The combinations of types, conversions and throwing methods are many, and 'a method that is not asked does not matter' is about every behaviour of that method.", "anchors": ["src/main/java/io/fastprintf/ArgsImpl.java:179-222", "src/main/java/io/fastprintf/traits/ObjectTraits.java:56-119", "src/main/java/io/fastprintf/traits/CharSequenceTraits.java"]}
{"id": "C95", "title": "Arguments whose methods have side effects", "statement": "The methods of an argument (those of FormatTraits, which call toString(), longValue() and the like of the object) may do anything: count, log, read or change other objects, read or write the target of the call. A call asks one question of each argument, in the order of the format: a * width, then a * precision, then the value; no other method of FormatTraits is called. When a directive asks, everything before it has been written to the target, and nothing of its own. So format(Args) returns exactly the text that ordinary arguments with the answers given on that occasion produce, also when one object stands at several places and answers differently each time. If the call throws, the questions asked were a first part of the list, these answers alone decide the exception, a directive asks nothing more once the outcome is decided, and what the methods changed stays changed. A format that does not compile calls nothing. Arguments without side effects leave the world unchanged.", "quantifier": "All formats, all arguments with arbitrary methods over an arbitrary state, all builders and all other Appendables (which may throw or have side effects too).", "why_tests_cant": "The number and order of calls can be watched for single formats only, and the arguments are arbitrary programs.", "anchors": ["src/main/java/io/fastprintf/appender/DefaultAppender.java:26-118", "src/main/java/io/fastprintf/FastPrintfImpl.java:79-118", "src/main/java/io/fastprintf/appender/SeqFormatter.java:340-401"]}
{"id": "C96", "title": "Which methods of a user's object are called, and how often", "statement": "For each place where an object of a user's class (not a CharSequence, TemporalAccessor or FormatTraits) stands in the argument list, exactly one of its methods is called, once: toString() for %s; for a Number longValue() under the integer conversions and %t, doubleValue() under the floating-point conversions, intValue() under %c and for *; for a Date getTime(), or toInstant() under %t; for a Calendar getTimeInMillis(); nothing for %p and %n. An object that is none of these has toString() called under those conversions too, for the message of the PrintfException; an exception that toString() then throws is swallowed, its other effects remain. So format(Args) returns the text that ordinary objects with the answers given on that occasion produce, and if it throws, the methods called so far, in the order of the format, decide the exception.", "quantifier": "All formats, all lists of such objects, all methods as arbitrary programs over an arbitrary state.", "why_tests_cant": "A test can count the calls for one format and one object; that no other method is ever called, and that only its answer matters, is about all formats and all behaviours.", "anchors": ["src/main/java/io/fastprintf/traits/ObjectTraits.java:56-124", "src/main/java/io/fastprintf/PrintfException.java:7-9", "src/main/java/io/fastprintf/util/Utils.java:133-145"]}
{"id": "C97", "title": "BigDecimals beyond the reach of BigInteger", "statement": "A BigDecimal with a short text can have a scale of two thousand million. If BigInteger has a largest number (its documentation promises 2^Integer.MAX_VALUE), every conversion of an argument whose unscaled value, integer part and power of ten of the scale are below it gives what the other properties say, for every target; this includes all BigDecimals whose digits and scale add up to no more than 644 million. Beyond that, %f throws ArithmeticException exactly if the value is below 1 and the power of ten that separates its scale from the precision is out of reach, although the value then rounds to zero or to one unit in the last place; the integer conversions throw it exactly if the integer part or the power of ten of the scale is out of reach, and so do * and %c if the JDK takes intValue() by way of the integer part; %e, %g, %a, %s and %p are not affected by any scale.", "quantifier": "every largest number, every BigDecimal (unscaled value, scale) and BigInteger, every directive, format and argument list, every target", "why_tests_cant": "The failing values need gigabytes of memory or minutes of time to come near in a test, and depend on the JDK; which conversions are safe is a statement about every scale.", "anchors": ["src/main/java/io/fastprintf/number/BigDecimalWrapper.java:114-171", "src/main/java/io/fastprintf/traits/BigDecimalTraits.java:14-34"]}
{"id": "C98", "title": "Agreement with String.format, and the exact list of differences", "statement": "For every directive that String.format accepts as well (%d %o %x %X %f %e %E %g %G %c %s %S without *, within Java's rules on flags) and every argument for which the documentation of java.util.Formatter fixes the text, the library prints that text if and only if the case is not on this list: null under a conversion other than %s; zero under %#o or %#x; a negative BigInteger, or one with the + flag, under %o or %x; positive infinity with the space flag where padding does not hide the blank; a BigDecimal zero of negative scale under %f unless the 0 flag asks for as many zeros, or of any scale other than 0 under %e; a BigDecimal of exponent 9 printed with ten digits under %e; a double under %g whose fraction ends in a zero; a supplementary code point under %c; a rope cut by the precision that reports a wrong length. A format string of such directives prints what String.format prints for arguments without these cases. Under %a without a precision the library prints the text of Double.toHexString exactly for the finite doubles strictly between -1 and 1 other than zero, and for the other finite doubles the same with a + after the p.", "quantifier": "all directives, all arguments, all format strings", "why_tests_cant": "The tests of the repository compare with String.format for samples, and skip or never reach the cases that differ (zero with #, Infinity with a space flag, negative scales). That the list is complete for all flags, widths, precisions and values, and that each entry really differs, cannot be seen from samples.", "anchors": ["README.md:236-250", "src/test/java/io/fastprintf/appender/SeqFormatterTest.java:15-45", "src/main/java/io/fastprintf/appender/SeqFormatter.java:22-403"]}
{"id": "C99", "title": "What %t prints without a pattern, and what can be read from it", "statement": "Given that the ISO formatters of java.time do what their documentation says: %t without a pattern prints an Instant, Date, Calendar or number as the date, time and offset of the clock in the system's zone at that moment (2023-11-14T23:13:20+01:00; seconds always, a fraction only if there is one; Z for UTC), an OffsetDateTime or ZonedDateTime with its own offset, a LocalDateTime and a LocalDate without; padded with spaces. Every int and every non-negative long can be printed. The text tells the moment, whatever the zones: two instants with the same text are the same; two longs print alike exactly if they are equal or one is the number of seconds (below 2^32) and the other the number of milliseconds of the same moment. In a zone of fixed offset, numbers of seconds print texts of one length which sort like the numbers; milliseconds need not (a text without a fraction sorts behind those with one). %T prints the same as %t.", "quantifier": "all zones with offsets up to 18 hours, all instants within 999 million years, all ints, longs, BigIntegers and Numbers, all values of the java.time classes, all widths and flags", "why_tests_cant": "The tests print a handful of dates; that each of 2^63 numbers prints, that no two moments share a text in any pair of zones, and which numbers collide needs the calendar to be proved a bijection.", "anchors": ["src/main/java/io/fastprintf/appender/SeqFormatter.java:375-402", "src/main/java/io/fastprintf/util/Utils.java:126-131", "README.md:184-190"]}
{"id": "C100", "title": "Composite sequences of the user's own classes", "statement": "A composite of any class that implements AtomicSeqIterable and keeps its default methods is honest if its iterator delivers the leaves that unfold leads to, its length is the sum of theirs and its elementCount is not negative. Histories of Seq.concat, Seq.join, append, prepend and upperCase over documented leaves and honest composites behave like the string of the leaf texts side by side in length, isEmpty, charAt, indexOf, startsWith and both appendTo methods, and in toString unless the result is such a composite itself; subSequence, %s and %S are as for the library's composites, including the length a slice reports. A composite whose iterator and unfold differ is printed by %s as its iterator says if the width is at most its length, and as it unfolds if the width is larger. With a negative elementCount upperCase and %S throw IllegalArgumentException. If the iterator delivers nothing, upperCase gives a sequence that is written as nothing alone, but everything that begins with it in Seq.concat throws IndexOutOfBoundsException when written. Its toString is only used when it is asked alone, or for the slice that is the whole: a concatenation with it shows the same text whatever it says.", "quantifier": "every leaf type with its methods, every composite with any answers, nested to any depth, every history of operations, every index pair, flag set, width and precision", "why_tests_cant": "Any class can implement the interface, so there is no list of composites to try; the two ways of reading one only meet in nested histories.", "anchors": ["src/main/java/io/fastprintf/seq/AtomicSeqIterable.java:7-152", "src/main/java/io/fastprintf/seq/Concat.java:65-173", "src/main/java/io/fastprintf/seq/SeqArray.java:40-120", "src/main/java/io/fastprintf/appender/SeqFormatter.java:344-351"]}
{"id": "C101", "title": "What %t prints with a pattern, and for which arguments it throws", "statement": "Given that java.time does what its documentation says about patterns made of yyyy, yy, uuuu, one or two of M d H m s, up to nine S, XXX, up to three Z, quoted text and punctuation: %t{pattern} compiles with every such pattern (quoted braces and doubled quotes included) and prints its parts one after the other for the fields of the argument, padded with spaces, or throws DateTimeException if the argument lacks one of the fields. An OffsetDateTime or ZonedDateTime has all of them; a LocalDateTime all but the offset; a LocalDate only year, month and day; an Instant only the fraction of a second. With a pattern, numbers, Date and Calendar are such Instants and are not placed in a time zone: every number (every int, every non-negative long, BigInteger or Number value) under a pattern with any field other than S throws, for example %t{yyyy-MM-dd}, although %t prints it. With yyyy MM dd HH mm ss in this order, then perhaps a fraction, and any text between, what is printed for LocalDateTimes of the years 1 to 9999 has one length and sorts like the times, and equal texts mean equal times up to the digits shown. %T{pattern} prints the same with ASCII letters raised.", "quantifier": "all patterns of these parts, all values of the java.time classes, all numbers, all flags and widths", "why_tests_cant": "The patterns, moments and arguments are unbounded; the order of the texts is a statement about all pairs of times; that no number at all can be printed with a date pattern cannot be sampled, and the tests of the repository use patterns only with LocalDateTime, OffsetDateTime and ZonedDateTime.", "anchors": ["src/main/java/io/fastprintf/appender/SeqFormatter.java:389-402", "src/main/java/io/fastprintf/Compiler.java:144-189", "src/main/java/io/fastprintf/traits/ObjectTraits.java:94-105", "src/main/java/io/fastprintf/util/Utils.java:126-131", "README.md:183-189"]}
{"id": "C102", "title": "What an Appendable that is no StringBuilder is given, call by call", "statement": "format(Appendable, args) on a target that is no StringBuilder makes the same sequence of append calls whatever the target, up to the first that throws. The calls make up the text a StringBuilder would have received, and none of them is empty. Literal text is one call. %s of anything but a Seq hands over its text, cut to the precision, in one call. %s of a Seq that is not cut makes the calls of its own appendTo. %c, %t and non-finite numbers are one call, %p is three: class name, @, hash code. %d, %u, %o and %x hand over the digits in one call, and so a prefix. Blanks, filled-in zeros and signs are one call each. Every character that an upper-case conversion prints, and every character of %f, %g and %e of a finite double (except the exponent of a zero), is one call.", "quantifier": "For all format strings, all arguments of the kinds the library knows (sequences built with any history of Seq operations included), all targets.", "why_tests_cant": "Tests look at the text a target ends up with; how the text was cut into calls is not visible there, and which calls a target sees depends on the shape of the rope built for each conversion, width, flag and argument type.", "anchors": ["src/main/java/io/fastprintf/FastPrintfImpl.java:94-119", "src/main/java/io/fastprintf/seq/StrView.java", "src/main/java/io/fastprintf/seq/CharArray.java", "src/main/java/io/fastprintf/seq/Repeated.java", "src/main/java/io/fastprintf/appender/SeqFormatter.java:28-71"]}
{"id": "C103", "title": "A text that is changed while it is printed", "statement": "A CharSequence argument of a class other than String and Seq is measured first and read later, and another thread may change it in between; likewise a Seq.lazy whose action does not produce the announced number of characters. If it has n characters when measured and is the text t when read, %s and %S behave as follows, and the rest of the call is not affected. If n = 0, it prints as empty. If t has n characters, t is printed like a String. Otherwise %s on a StringBuilder (or format(...) to a String) prints all of t beside the blanks for n characters, if n is at least 2 and the precision cuts nothing off n characters; the width is then missed by the difference of the lengths. In all other cases there is an IllegalStateException: under %S, with a cutting precision or for n = 1 before anything of the directive is written, and on a target that is no StringBuilder after the blanks before the field.", "quantifier": "For all format strings and positions of the directive in them, all flags, widths and precisions without *, all n and t, all other arguments, all targets.", "why_tests_cant": "The change has to fall between two calls inside the library, so a test would have to win a race; and there is no end to the pairs of lengths and texts.", "anchors": ["src/main/java/io/fastprintf/traits/CharSequenceTraits.java:61-76", "src/main/java/io/fastprintf/seq/LazySeq.java:74-174", "src/main/java/io/fastprintf/seq/Seq.java:206-217", "src/main/java/io/fastprintf/appender/SeqFormatter.java:28-71"]}
{"id": "C104", "title": "Which append methods a target sees, and what it may throw", "statement": "A target that is no StringBuilder may tell append(char), append(CharSequence) and append(CharSequence, int, int) apart, and may throw any exception. Every such target is given the same calls in the same order, up to the first that throws; an IOException surfaces from format as an UncheckedIOException, every other exception as it is, no further call is made, and the target is left as that call left it. Every range that is handed over lies in its text, and the texts of the calls are those of C102. A target that looks only at the texts and throws only IOExceptions behaves as in all other properties. Literal text of one character comes by append(char), longer literal text as a range of it. %s of a String hands over a range of that very string, from 0 to the length or the precision, without copying it; one character, and each blank of the padding, comes by append(char). An upper-case conversion hands over its whole field by append(char) alone, whatever the argument.", "quantifier": "For all format strings that compile, all lists of well-behaved arguments, all targets with any state and any exceptions; for the last sentences all literals, strings, flags, widths and precisions without *.", "why_tests_cant": "A test uses one target class, such as StringBuffer or StringWriter, whose three methods agree and never throw; that all targets and all calls are treated alike is a statement about infinitely many classes.", "anchors": ["src/main/java/io/fastprintf/FastPrintfImpl.java:94-119", "src/main/java/io/fastprintf/seq/StrView.java:89-98", "src/main/java/io/fastprintf/seq/AtomicSeqIterable.java:84-88"]}
{"id": "C105", "title": "Which exceptions have a cause and a stack trace", "statement": "A PrintfException has a cause (the NumberFormatException) and a stack trace exactly if a number was asked of a text: under %d %i %u %o %x %a %e %f %g and their upper-case twins, or for a *. Every other PrintfException has no cause and an empty stack trace and takes no suppressed exceptions: null, an object that is no number, a point in time that has no instant (although a DateTimeException was caught), an empty text under %c, a negative BigInteger under %u, %a of a BigDecimal, a primitive under %p, whatever %t refuses, a missing argument, a number above the cap. Every PrintfSyntaxException has a stack trace; it has a cause exactly if the format has a closed, non-empty date pattern at the index that DateTimeFormatter.ofPattern does not take. So an invalid width or precision has none, although a NumberFormatException was caught.", "quantifier": "All directives without *, all arguments of the library's types, all arguments of a *, all format strings.", "why_tests_cant": "The tests look at messages of some refusals; that no refusal at all but that of a text keeps its cause is a statement about all arguments and all formats.", "anchors": ["src/main/java/io/fastprintf/PrintfException.java:7-13", "src/main/java/io/fastprintf/PrintfSyntaxException.java:18-37", "src/main/java/io/fastprintf/traits/TemporalAccessorTraits.java:35-63", "src/main/java/io/fastprintf/traits/CharSequenceTraits.java:22-55", "src/main/java/io/fastprintf/Compiler.java:105-109", "src/main/java/io/fastprintf/Compiler.java:183-189"]}
{"id": "C106", "title": "An Args object that is given further values while it is printed", "statement": "A method of an argument, or of the target, may call put on the very Args object of the call. What is put does not take part in the call. As long as the Args have as many values as in the beginning whenever a directive asks for one (for a * width, a * precision or the value), the call is the one of C95 with the arguments that were there in the beginning; so a put by the last argument that is asked goes unnoticed. The first request after a put throws ConcurrentModificationException, also where arguments are left, and where none is left instead of the PrintfException about a missing argument; what was written and changed until then stays. Args.values() throws that exception right after the value whose conversion puts something, even if it is the last. Args.toString() asks every value for its text and throws in the end.", "quantifier": "All formats, all lists of arguments with arbitrary methods over an arbitrary state, all targets, all states; the number of values of the Args may be any function of the state that is never lowered.", "why_tests_cant": "Whether a put is noticed depends on where in the format it happens and on which request follows it, over all formats and all arguments; tests show single places.", "anchors": ["src/main/java/io/fastprintf/ArgsImpl.java:16", "src/main/java/io/fastprintf/ArgsImpl.java:61-67", "src/main/java/io/fastprintf/ArgsImpl.java:175-177", "src/main/java/io/fastprintf/ArgsImpl.java:186-189", "src/main/java/io/fastprintf/FastPrintfImpl.java:94-119", "src/main/java/io/fastprintf/appender/DefaultAppender.java:91-118"]}
{"id": "C107", "title": "Args of the user's own class", "statement": "Args is an interface. A call uses nothing of it but iterator(), once, before anything is written, and of the iterator hasNext() and next() in turns: for each * width, each * precision and each value one hasNext() and, if that is true, one next(), immediately before the value is used. A call that returns has called next() exactly as often as the format takes arguments, so an Args without end can be printed, and nothing is fetched ahead; a call that throws has made a first part of these calls. Exceptions of these methods and their side effects pass through. An Args that delivers a list is printed like that list (C95), and the library's own Args like an ArrayList that may grow (C106). A null among the arguments makes the directive throw NullPointerException and write nothing, except that %n and a decorated %% do not look at it. If iterator() returns null, the text before the first directive is written, then NullPointerException is thrown; a format without directives does not notice.", "quantifier": "All formats, all programs for iterator(), hasNext() and next() over an arbitrary state, all arguments with arbitrary methods, all targets.", "why_tests_cant": "The protocol is a statement about every format and every iterator, including iterators with side effects, exceptions at any call and no end.", "anchors": ["src/main/java/io/fastprintf/Args.java:53", "src/main/java/io/fastprintf/FastPrintfImpl.java:80-119", "src/main/java/io/fastprintf/appender/DefaultAppender.java:91-122"]}
{"id": "C108", "title": "What the result of a call depends on besides the format and the arguments", "statement": "Compiling a format depends on the format alone, and where `t{pattern}` or `T{pattern}` is written in it, on whether the JDK accepts that pattern: otherwise the compiled pieces, or the exception, are the same. Formatting depends on the format, on the arguments and on these calls into the JDK only: `Double.toString` and `Float.toString` for a (boxed or primitive) double or float at `%s`/`%S`; `BigDecimal.toString` for a BigDecimal at `%s`/`%S`; `Character.digit` of the characters behind the sign for a text at an integer conversion or at a `*`; `Double.parseDouble` for a text at a floating-point conversion; `Instant.from` for a TemporalAccessor at an integer or floating-point conversion or at a `*`; and `DateTimeFormatter.format` at `%t`/`%T`, with the written pattern, or with one of three ISO formatters chosen by the class of the date. If two JDKs agree on the calls of this list that belong to the format and the arguments, then the result, or the exception, and what any target holds afterwards are the same; in particular formats of number conversions, characters and references applied to arguments that are neither texts nor dates do not depend on the JDK, its default locale or its time zone at all. The list is exact: for each entry there are two JDKs that differ in that one answer and for which a format prints the argument in two ways.", "quantifier": "all format strings, all argument lists, all behaviours of the listed JDK methods and of DateTimeFormatter", "why_tests_cant": "A test runs on one JDK with one locale and one time zone; that nothing else of the surroundings can change a result, for any format and any arguments, is a statement about all surroundings.", "anchors": ["src/main/java/io/fastprintf/Compiler.java:144-189", "src/main/java/io/fastprintf/traits/CharSequenceTraits.java:22-55", "src/main/java/io/fastprintf/traits/TemporalAccessorTraits.java:25-60", "src/main/java/io/fastprintf/traits/DoubleTraits.java:32", "src/main/java/io/fastprintf/traits/FloatTraits.java:32", "src/main/java/io/fastprintf/traits/BigDecimalTraits.java:27", "src/main/java/io/fastprintf/appender/SeqFormatter.java:375-402", "src/main/java/io/fastprintf/appender/DefaultAppender.java:26-89"]}
{"id": "C109", "title": "Arguments and numbers of the user's own classes", "statement": "FormatTraits, IntForm and FloatForm are public interfaces. A directive calls exactly one method of its argument (asIntForm, asFloatForm, asSeq, asTemporalAccessor, asChar or ref; none for %n and a decorated %%), and of the number it returns these, in this order, until one throws or returns null. Integers: signum(), then the text of the base, which is not asked for when the number is 0 and the precision 0. Floating-point numbers: isNaN(), isInfinite(), then one layout, asked with the precision of the directive (6, or 13 for %a, when it has none; 1 for a 0 under %g and %a), then isNegative() for %f, %e, %g, or signum() for %a; a NaN is asked isNaN() once more, an infinity isNaN() and signum(). So the sign of a finite number is what isNegative() says, except under %a, where it is what signum() says; a class that overrides isNegative() can tell the difference. Numbers and arguments that answer as the library's own do are printed as those. A null number, text, layout, sequence, time or slot ends the call with NullPointerException, and nothing of the directive is written. A class with only the five methods it must write is refused by %t after its ref() has been asked (and may be null there), prints the low 16 bits of asInt() under %c, and asString() under %s.", "quantifier": "All directives, contexts and targets; all answers of the methods (values, null or exceptions) for the order of calls; arbitrary programs with side effects for null and the default methods.", "why_tests_cant": "The order and number of calls must be right for every combination of conversion, flags, precision and answers, including answers that none of the library's own classes give.", "anchors": ["src/main/java/io/fastprintf/appender/SeqFormatter.java:73-402", "src/main/java/io/fastprintf/appender/DefaultAppender.java:26-118", "src/main/java/io/fastprintf/traits/FormatTraits.java:34-169", "src/main/java/io/fastprintf/number/IntForm.java:23-104", "src/main/java/io/fastprintf/number/FloatForm.java:24-94", "src/main/java/io/fastprintf/number/NumberForm.java:17-52"]}
{"id": "C110", "title": "BigIntegers of the user's own subclass", "statement": "A BigInteger may be of a subclass that overrides its methods. %d calls abs(), signum(), and then toString() of the object that abs() gave; %u, %x, %X and %o the same with toString(), toString(16) or toString(8). The text is not asked for when signum() is 0 and the precision 0. Under %u, %x, %X and %o a number whose signum() is negative is refused with a PrintfException; toString() of the object that abs() gave is called for the message, and an exception of it is caught. %s and %S call toString(), %t and %T longValue(), %c and a * intValue(), %p, %n and a decorated %% nothing. Nothing else is called, and the calls end where a method throws. Printed are the sign that signum() tells and the digits that the object of abs() gives; a null from abs() or of a text ends the call with NullPointerException. An object that answers as the JDK's own class does is printed as its number. A class that overrides toString() alone changes %s, and %d and %u for numbers that are not negative: abs() is then the object itself. For a negative number %d prints the ordinary digits.", "quantifier": "All directives but the floating-point ones, all contexts, and all answers of the methods (values, null or exceptions). The floating-point conversions hand the object to the JDK and are not stated.", "why_tests_cant": "The order of calls, and what happens when an answer is null, throws, or contradicts another answer, has to hold for every class a user may write; tests can try some classes.", "anchors": ["src/main/java/io/fastprintf/number/BigIntegerWrapper.java", "src/main/java/io/fastprintf/traits/BigIntegerTraits.java", "src/main/java/io/fastprintf/util/Utils.java", "src/main/java/io/fastprintf/appender/SeqFormatter.java"]}
{"id": "C111", "title": "The layouts of FloatForm, asked for directly", "statement": "FloatForm.valueOf is public, and its layout methods take any int. For a finite double, decimalLayout(p) is the decimal that stands for it, rounded half up to p places for every p, negative ones included: a plain decimal without exponent and without padding, so that the documented p digits after the point need not be there. scientificLayout(p) rounds it half up to p + 1 significant digits and writes a point unless p = 0, even if no digit follows; for p = -1 it gives '1.' with the exponent of the next power of ten from one half of it on, and otherwise '0.' with '+00', as for every smaller p. generalLayout(p) rounds to p significant digits and is plain if the exponent of the rounded value is from -4 up to below p. Zeros give '0' whatever the precision, and NaN and the infinities are laid out as a zero too, with a point behind it where the layout has an exponent and p is not 0. hexLayout(0) keeps all digits. decimalLayout(p) of a nonzero BigDecimal rounds half up if a digit is left to round to; for a negative p a value below 1 gives 1 - p zeros, a larger one all of whose digits would go is not rounded at all, and one with fewer digits still throws IllegalArgumentException. Its scientificLayout(p) rounds half up to p + 1 significant digits, keeps all digits for p = -1, and throws IllegalArgumentException for smaller p. Its generalLayout(p) chooses the style by the exponent x of the value itself, plain if x is from -4 up to below p, and is then decimalLayout(p - 1 - x), otherwise scientificLayout(p - 1); so with p = 0 a number of 1 or more keeps all its digits, and with a negative p it is refused with IllegalArgumentException.", "quantifier": "all doubles and all int precisions; all nonzero BigDecimals whose first digit has an int position, and all int precisions but the two smallest (for generalLayout also not above 2147483640)", "why_tests_cant": "the precision and the number range over 2^32 by 2^64 values and, for BigDecimal, over infinitely many; the boundary between rounding, not rounding and refusing depends on both", "anchors": ["number/FloatForm.java:31-43", "number/DoubleWrapper.java:63-81", "number/BigDecimalWrapper.java:156-171", "util/internal/FormattedFPDecimal.java:100-188"]}
{"id": "C112", "title": "Enabling assertions changes no call", "statement": "The library has seven assert statements, which a virtual machine evaluates only with -ea. Whatever the format and the arguments, a formatting call ends in the same way and writes the same text with assertions enabled and disabled. The same holds for every subSequence of a consistent sequence: its buffer is never empty. The masks of DoubleConsts cover every bit exactly once. The only place where -ea is visible is hexLayout of a FloatForm asked for directly: with a finite double and a precision that is not negative it always succeeds, in both modes alike; with assertions enabled it throws AssertionError exactly for NaN, the infinities, and a negative precision of a number that is not zero; with assertions disabled NaN and the infinities throw IndexOutOfBoundsException instead, and a negative precision is not refused but taken modulo 16 (so that -4 gives twelve digits) if that is between 1 and 12.", "quantifier": "all format strings, argument lists and targets; all sequences and indices; all doubles and all int precisions (for the reduction modulo 16: from -500000000 on)", "why_tests_cant": "tests normally run with -ea while production runs without; that no assertion can fail for any of 2^64 doubles and any precision, and that skipping them changes nothing, is a statement about all inputs in two modes", "anchors": ["number/DoubleWrapper.java:26-33", "number/DoubleWrapper.java:84-153", "util/internal/DoubleConsts.java:52-76", "seq/AtomicSeqIterable.java:32-57", "number/FloatForm.java:31-43"]}
{"id": "C113", "title": "BigDecimals of the user's own subclass", "statement": "A BigDecimal may be of a subclass that overrides its methods. %d, %u, %x, %X and %o call toBigInteger() and nothing else; %s and %S call toString(), %c and a * intValue(), %t, %T, %p, %n and a decorated %% nothing. %f, %F, %e, %E, %g, %G, %a and %A call abs() and signum() of the argument, and then methods of the object that abs() gave: %f scale(), and if the scale is above the precision, precision(), and then setScale or unscaledValue(); %e scale(), precision() and unscaledValue(); %g equals(ZERO), compareTo with 0.0001 and with 10 to the precision, and then those of %f or %e; %a toString(), for the message of its PrintfException. The calls are those of a table for every combination of answers, and end where a method throws; an exception ends the call unchanged, except that one of toString() for the message is caught. %a and %A are refused with PrintfException whatever abs() and signum() returned. An object whose answers are those of a number is printed as that number, whatever else its methods do, with the sign of the floating-point conversions that signum() tells and the text of toString() under %s. So overriding toString() alone changes %s and %S and nothing else.", "quantifier": "All directives, all contexts with a precision that is not negative (or none) up to 2147483646, and all answers of the methods (values, null or exceptions); for the printed text all numbers of up to 2147483647 digits and every scale.", "why_tests_cant": "The order of calls, and what happens when an answer is null, throws, or contradicts another answer, has to hold for every class a user may write; tests can try some classes.", "anchors": ["src/main/java/io/fastprintf/number/BigDecimalWrapper.java", "src/main/java/io/fastprintf/traits/BigDecimalTraits.java", "src/main/java/io/fastprintf/traits/FormatTraits.java", "src/main/java/io/fastprintf/util/Utils.java", "src/main/java/io/fastprintf/appender/SeqFormatter.java"]}
{"id": "C114", "title": "The version of the JDK changes no text", "statement": "When it is loaded the library looks for two methods of the JDK: Math.multiplyHigh (from 9 on) for the decimals of doubles, and StringBuilder.repeat (from 21 on) for repeated characters such as padding; where they are missing it has code of its own. Whichever of them are there, every layout of a double and DoubleToDecimal.toString give the same, and a call with any format and arguments gives the same text or exception, leaves the same in its StringBuilder and the same arguments over, and makes the same calls of any other Appendable. Only a builder that runs out of room tells the difference: if count repeated characters do not fit, a JDK with StringBuilder.repeat ends with a RuntimeException whose cause is the OutOfMemoryError and nothing of them is written; a JDK without it ends with the OutOfMemoryError itself, and nothing of them is written unless there are fewer than 16 and the new length would not fit an int, in which case the builder has been filled up.", "quantifier": "all doubles, all formats, arguments and targets, all JDKs with or without either method; for padding all characters, counts and builders up to 2147483647", "why_tests_cant": "a test run sees one JDK; that the two pairs of implementations agree is a statement about all 2^128 pairs of longs, all builders and all calls, and builders without room cannot be had in a test", "anchors": ["util/internal/MultiplyHigh.java:38-117", "seq/Repeated.java:14-77", "seq/Repeated.java:136-139", "util/internal/DoubleToDecimal.java:151-158", "util/internal/DoubleToDecimal.java:371-406"]}
{"id": "C115", "title": "A RefSlot stands for ever for what it was made for", "statement": "Whatever code outside the package io.fastprintf.traits calls, in any order, short of reflection: RefSlot.ofPrimitive() gives one and the same slot, which is primitive and refuses get() with UnsupportedOperationException; ofNull() and of(null) give one and the same slot, whose get() is null; of(x) gives a slot not handed out before, whose get() is x itself and which is not primitive, whatever is called afterwards, and also if x is itself a slot. So each slot is in just one of the three documented states, the slot of ofPrimitive() is the only primitive one, and get() hands out nothing that the code did not have: the private object that marks the primitive slot cannot be had.", "quantifier": "all sequences of calls of the public methods of RefSlot, with all objects that such code can have", "why_tests_cant": "that no sequence of calls gets hold of the private marker object is a statement about all programs that use the class", "anchors": ["traits/RefSlot.java:21-59"]}
{"id": "C116", "title": "BigDecimals at the edge of the int scale", "statement": "%.pe of a nonzero BigDecimal of any scale prints its value rounded half-up to p+1 significant digits, unless digits must be dropped and the last digit left would stand above 10^2147483648: then, and only then, the call ends with ArithmeticException (94E+2147483647 prints 9e+2147483648 under %.0e, 95E+2147483647 fails). %.Pg fails under the same condition with P digits. A zero of any scale prints the negated scale as its exponent. %.pf of a BigDecimal of negative scale with more than 2147483648 digits before the point does not print its value: it prints a number below one, 0.000..., with the digits after 2^32 less that many zeros and followed by p zeros more than the scale says, as long as those zeros are at most 2147483647, and otherwise ends with IllegalArgumentException (as %f of 1E+2147483648 does).", "quantifier": "every directive %e, %g without *; every directive %.pf with p >= 1 without flags and width; every BigDecimal", "why_tests_cant": "The outcome depends on where the last digit stands after rounding, including a carry into a new digit, and on sums that wrap around at 2^31; tests try a few ordinary scales and cannot look at a text of 2^32 chars.", "anchors": ["number/BigDecimalWrapper.java:69-96", "number/BigDecimalWrapper.java:140-153", "appender/SeqFormatter.java:173-192"]}
{"id": "C117", "title": "FormattedFPDecimal.valueOf called directly", "statement": "FormattedFPDecimal.valueOf(v, prec, form): a finite negative v, also -0.0, ends with NullPointerException whatever the form; otherwise a form other than 'e', 'f', 'g' ends with IllegalArgumentException; NaN and the infinities give what 0.0 gives. For positive v, getMantissa() and getExponent() are the texts of the scientific, decimal and general layouts used by printf, with failures alike. Under form 'e' and prec >= 0, for positive finite v, getExponentRounded() is the decimal exponent of v after rounding half-up to prec+1 significant digits, and getExponent() writes it with a sign and at least two digits. Under 'g' and prec >= 1 the same holds with prec digits, and getExponent() is null exactly if the exponent is at least -4 and below prec. Under 'f' getExponentRounded() is the decimal exponent of v rounded half-up to prec places, and 0 if that is zero. 0.0 gives 0 under 'f', 0 or (prec != 0) 0. with exponent +00 under 'e', and under 'g' 0 if prec >= 1, else 0. with +00.", "quantifier": "every double, every int precision, every char as form", "why_tests_cant": "The exponent depends on a carry in the rounding of the shortest decimal; there are 2^64 doubles for each precision and form, and 2^16 forms.", "anchors": ["util/internal/FormattedFPDecimal.java:46-71", "util/internal/FormattedFPDecimal.java:88-98", "util/internal/DoubleToDecimal.java:129-131"]}
