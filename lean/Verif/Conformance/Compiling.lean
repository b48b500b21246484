/-
The format strings of src/test/java/io/fastprintf/{CompilerTest,MoreCompilerTest}.java, compiled in the model, and the
texts of UtilsTest, PrintfExceptionTest, PrintfSyntaxExceptionTest, FormatContextTest and ArgsImplTest.
-/
import Verif.Conformance.Run
import Verif.Model.ArgsImpl
import Verif.Model.Descriptions

namespace FastPrintf.Conformance.Compiling

open Compiler Messages

/-- Every date pattern is valid. -/
def any : DateSyntax := ⟨fun _ => true⟩

/-! ## CompilerTest -/

/-- test1. -/
example : compile any (js! "Characters: %c %c \n") = .ok [
    .fixed (js! "Characters: "),
    .dflt .c ⟨{}, -1, -1, none⟩,
    .fixed (js! " "),
    .dflt .c ⟨{}, -1, -1, none⟩,
    .fixed (js! " \n")] := by decide +kernel

/-- test2. -/
example : compile any (js! "Decimals: %d %d\n") = .ok [
    .fixed (js! "Decimals: "),
    .dflt .d ⟨{}, -1, -1, none⟩,
    .fixed (js! " "),
    .dflt .d ⟨{}, -1, -1, none⟩,
    .fixed (js! "\n")] := by decide +kernel

/-- test3. -/
example : compile any (js! "Preceding with zeros: %010d \n") = .ok [
    .fixed (js! "Preceding with zeros: "),
    .dflt .d ⟨{ zeroPad := true }, 10, -1, none⟩,
    .fixed (js! " \n")] := by decide +kernel

/-- test4. -/
example : compile any (js! "Some different radices: %d %x %o %#x %#o \n") = .ok [
    .fixed (js! "Some different radices: "),
    .dflt .d ⟨{}, -1, -1, none⟩,
    .fixed (js! " "),
    .dflt .x ⟨{}, -1, -1, none⟩,
    .fixed (js! " "),
    .dflt .o ⟨{}, -1, -1, none⟩,
    .fixed (js! " "),
    .dflt .x ⟨{ alternate := true }, -1, -1, none⟩,
    .fixed (js! " "),
    .dflt .o ⟨{ alternate := true }, -1, -1, none⟩,
    .fixed (js! " \n")] := by decide +kernel

/-- test5. -/
example : compile any (js! "floats: %4.2f %+.0e %E \n") = .ok [
    .fixed (js! "floats: "),
    .dflt .f ⟨{}, 4, 2, none⟩,
    .fixed (js! " "),
    .dflt .e ⟨{ plus := true }, -1, 0, none⟩,
    .fixed (js! " "),
    .dflt .upperE ⟨{}, -1, -1, none⟩,
    .fixed (js! " \n")] := by decide +kernel

/-- test6. -/
example : compile any (js! "Width trick: %*d \n") = .ok [
    .fixed (js! "Width trick: "),
    .dflt .d ⟨{}, PRECEDING, -1, none⟩,
    .fixed (js! " \n")] := by decide +kernel

/-- test7. -/
example : compile any (js! "%%%%") = .ok [
    .fixed (js! "%"),
    .fixed (js! "%")] := by decide +kernel


/-- test8, testDateTimePatternParsing, testDateTimePatternWithNestedBraceSucceeds. -/
example : compile any (js! "Date time: %16t{yyyy-MM-dd HH:mm:ss}") = .ok [
    .fixed (js! "Date time: "), .dflt .t ⟨{}, 16, -1, some (js! "yyyy-MM-dd HH:mm:ss")⟩] := by decide +kernel
example : compile any (js! "%t{'Date is 'yyyy-MM-dd}") = .ok [
    .dflt .t ⟨{}, -1, -1, some (js! "'Date is 'yyyy-MM-dd")⟩] := by decide +kernel
example : compile any (js! "%t{yyyy-MM-dd'T'HH:mm:ss'}'}") = .ok [
    .dflt .t ⟨{}, -1, -1, some (js! "yyyy-MM-dd'T'HH:mm:ss'}'")⟩] := by decide +kernel

/-- The description of the exception with which a format is refused. -/
def refusal (format : JStr) : Option JStr :=
  match compile any format with
  | .error (.syntaxErr why index) => some (description why index)
  | _ => none

/-- testDateTimePatternUnclosedBrace, testDateTimePatternInvalidPatternLetter and
testCompilerErrorHandlingAndEdgeCases. -/
example : (refusal (js! "%{yyyy-MM-dd")).isSome = true := by decide +kernel
example : compile ⟨fun _ => false⟩ (js! "%t{J}") = .error (.syntaxErr (.invalidDatePattern (js! "J")) 3) := by
  decide +kernel
example : refusal (js! "%") = some (js! "Format string terminates in the middle of a format specifier") := by
  decide +kernel
example : refusal (js! "hello %10") = some (js! "Format string lacks specifier") := by decide +kernel
example : refusal (js! "%10.") = some (js! "Format string terminates after '.'") := by decide +kernel
example : refusal (js! "%--d") = some (js! "Duplicate flag 'LEFT_JUSTIFY'") := by decide +kernel
example : refusal (js! "%99999999999d") = some (js! "Invalid width: '99999999999'") := by decide +kernel
example : compile any (js! "%.s") = .ok [.dflt .s ⟨{}, -1, 0, none⟩] := by decide +kernel
example : refusal (js! "%t{}") = some (js! "Empty date/time pattern") := by decide +kernel
example : compile any (js! "%#s%+c%.5c") = .ok [.dflt .s ⟨{ alternate := true }, -1, -1, none⟩,
    .dflt .c ⟨{ plus := true }, -1, -1, none⟩, .dflt .c ⟨{}, -1, 5, none⟩] := by decide +kernel

/-! ## MoreCompilerTest -/

example : compile any (js! "Date: %t{yyyy-MM-dd}") = .ok [
    .fixed (js! "Date: "), .dflt .t ⟨{}, -1, -1, some (js! "yyyy-MM-dd")⟩] := by decide +kernel
example : compile any (js! "Date: %T{HH:mm:ss}") = .ok [
    .fixed (js! "Date: "), .dflt .upperT ⟨{}, -1, -1, some (js! "HH:mm:ss")⟩] := by decide +kernel
example : compile any (js! "Log: %-25.20t{'['HH:mm:ss.SSS']'}") = .ok [
    .fixed (js! "Log: "), .dflt .t ⟨{ leftJustify := true }, 25, 20, some (js! "'['HH:mm:ss.SSS']'")⟩] := by
  decide +kernel
example : compile any (js! "%t") = .ok [.dflt .t ⟨{}, -1, -1, none⟩] := by decide +kernel
example : compile any (js! "%s{this-is-literal} and %d{also-literal}") = .ok [
    .dflt .s ⟨{}, -1, -1, none⟩, .fixed (js! "{this-is-literal} and "), .dflt .d ⟨{}, -1, -1, none⟩,
    .fixed (js! "{also-literal}")] := by decide +kernel
example : (refusal (js! "%t{yyyy-MM-dd")).isSome = true := by decide +kernel
example : compile any (js! "%t{HH:mm}s") = .ok [
    .dflt .t ⟨{}, -1, -1, some (js! "HH:mm")⟩, .fixed (js! "s")] := by decide +kernel
example : compile any (js! "%t{yyyy-MM-dd'T''{'HH:mm:ss'}'}") = .ok [
    .dflt .t ⟨{}, -1, -1, some (js! "yyyy-MM-dd'T''{'HH:mm:ss'}'")⟩] := by decide +kernel
example : compile any (js! "Event at %t{HH:mm} on %t{yyyy-MM-dd} for user %s (ID: %04d)%%") = .ok [
    .fixed (js! "Event at "), .dflt .t ⟨{}, -1, -1, some (js! "HH:mm")⟩, .fixed (js! " on "),
    .dflt .t ⟨{}, -1, -1, some (js! "yyyy-MM-dd")⟩, .fixed (js! " for user "), .dflt .s ⟨{}, -1, -1, none⟩,
    .fixed (js! " (ID: "), .dflt .d ⟨{ zeroPad := true }, 4, -1, none⟩, .fixed (js! ")"), .fixed (js! "%")] := by
  decide +kernel
example : refusal (js! "%t{HH:mm") = some (js! "Unclosed date/time pattern starting at index 2") := by decide +kernel
example : compile any (js! "%t{HH:mm '%% progress'}") = .ok [
    .dflt .t ⟨{}, -1, -1, some (js! "HH:mm '%% progress'")⟩] := by decide +kernel
example : compile any (js! "%*.*t{yyyy}") = .ok [
    .dflt .t ⟨{}, PRECEDING, PRECEDING, some (js! "yyyy")⟩] := by decide +kernel

/-! ## FormatContextTest -/

/-- testToPatternString. -/
def pattern (flags : JStr) (w p : Int) (sp : Specifier) : Res JStr :=
  (FormatContext.createFrom (some flags) w p).map (·.toPatternString sp)

example : pattern [] (-1) (-1) .d = .ok (js! "%d") := by decide +kernel
example : pattern [] 10 (-1) .d = .ok (js! "%10d") := by decide +kernel
example : pattern [] (-1) 5 .s = .ok (js! "%.5s") := by decide +kernel
example : pattern (js! "-") 10 5 .f = .ok (js! "%-10.5f") := by decide +kernel
example : pattern (js! "#0+ ") (-1) (-1) .x = .ok (js! "%#+ 0x") := by decide +kernel
example : pattern [] PRECEDING PRECEDING .g = .ok (js! "%*.*g") := by decide +kernel
example : pattern [] PRECEDING (-1) .s = .ok (js! "%*s") := by decide +kernel
example : pattern [] (-1) PRECEDING .c = .ok (js! "%.*c") := by decide +kernel

/-! ## UtilsTest -/

example : [js! "Mixed Case 123", js! "ALREADY UPPER", js! "123456$#", []].map toUpperCaseStr =
    [js! "MIXED CASE 123", js! "ALREADY UPPER", js! "123456$#", []] := by decide +kernel
example : (js! "azA1 ").map toUpperCase = js! "AZA1 " := by decide +kernel
example : (js! "azAZ5$").map isLowerCase = [true, true, false, false, false, false] := by decide +kernel
example : (js! "09a ").map isDigit = [true, true, false, false] := by decide +kernel
example : joinToString (js! ",") (.array [.text (js! "1"), .text (js! "2"), .text (js! "3")]) = .ok (js! "1,2,3") := by
  decide +kernel
example : joinToString (js! "|") (.iterable [.text (js! "a"), .text (js! "b"), .text (js! "c")]) = .ok (js! "a|b|c") := by
  decide +kernel
example : joinToString (js! ",") (.array []) = .ok [] := by decide +kernel
example : join (js! "Prefix:") (js! " ") (.array [.text (js! "one"), .text (js! "two")]) = .ok (js! "Prefix:one two") := by
  decide +kernel
example : join [] (js! "-") (.iterable [.text (js! "1"), .text (js! "two"), .text (js! "3.0")]) = .ok (js! "1-two-3.0") := by
  decide +kernel
example : join [] (js! ",") (.iterator [.text (js! "x"), .text (js! "y"), .text (js! "z")]) = .ok (js! "x,y,z") := by
  decide +kernel
example : join [] (js! ",") (.other (.text (js! "42"))) = .ok (js! "42") := by decide +kernel
example : join (js! "test") (js! ",") .null = .ok (js! "test") := by decide +kernel
example : join (js! "test") (js! ",") (.iterable []) = .ok (js! "test") := by decide +kernel

/-- A call of `Utils.lenientFormat` with arguments whose texts are given. -/
def lenient (template : JStr) (args : List JStr) : JStr := lenientFormat (some template) (some (args.map .text))

example : lenient (js! "First: %s, Second: %s") [js! "1", js! "two"] = js! "First: 1, Second: two" := by decide +kernel
example : lenient (js! "No placeholders") [] = js! "No placeholders" := by decide +kernel
example : lenient (js! "One placeholder: %s") [js! "foo", js! "bar", js! "123"] =
    js! "One placeholder: foo [bar, 123]" := by decide +kernel
example : lenient (js! "Missing arg: %s") [] = js! "Missing arg: %s" := by decide +kernel
example : lenient (js! "Two missing: %s, %s") [] = js! "Two missing: %s, %s" := by decide +kernel
example : lenientFormat none (some [.text (js! "arg")]) = js! "null" := by decide +kernel
example : lenientFormat (some (js! "Args array is null: %s")) none = js! "Args array is null: (Object[])null" := by
  decide +kernel
example : lenientFormat (some (js! "Arg element is null: %s")) (some [.null]) = js! "Arg element is null: null" := by
  decide +kernel
example : lenient (js! "No placeholders") [js! "arg1", js! "arg2"] = js! "No placeholders [arg1, arg2]" := by
  decide +kernel
/-- testStringSizeInt and testStringSizeLong. -/
example : [0, 1, 9, 10, 99, 100, 999999999, 1000000000, 2147483647, -1, -9, -10, -99, -100, -2147483648].map stringSize32 =
    [1, 1, 1, 2, 2, 3, 9, 10, 10, 2, 2, 3, 3, 4, 11] := by decide +kernel
example : [0, 1, 9, 10, 999999999999999999, 1000000000000000000, 9223372036854775807, -1, -9, -10,
      -9223372036854775808].map stringSize64 = [1, 1, 1, 2, 18, 19, 19, 2, 2, 3, 20] := by decide +kernel
example : ∀ i ∈ List.range 10, ∀ v ∈ [(10 : Int) ^ i, 10 ^ i - 1, -10 ^ i, -10 ^ i + 1],
    stringSize32 v = (intToString v).length := by decide +kernel
example : ∀ i ∈ List.range 19, ∀ v ∈ [(10 : Int) ^ i, 10 ^ i - 1, -10 ^ i, -10 ^ i + 1],
    stringSize64 v = (intToString v).length := by decide +kernel

/-! ## PrintfExceptionTest and PrintfSyntaxExceptionTest -/

example : lenient (js! "Error processing value %s for user %s") [js! "123", js! "test"] =
    js! "Error processing value 123 for user test" := by decide +kernel
example : syntaxMessage (js! "\n") (js! "Unknown specifier") (some (js! "An error: %Q")) 11 =
    js! "Unknown specifier near index 11\nAn error: %Q\n           ^" := by decide +kernel
example : syntaxMessage (js! "\n") (js! "Terminates prematurely") (some (js! "%")) (-1) =
    js! "Terminates prematurely\n%" := by decide +kernel
example : syntaxMessage (js! "\n") (js! "Invalid flag") (some (js! "%?d")) 1 =
    js! "Invalid flag near index 1\n%?d\n ^" := by decide +kernel
example : syntaxMessage (js! "\n") (js! "Null pattern provided") none 5 =
    js! "Null pattern provided near index 5\nnull" := by decide +kernel

end FastPrintf.Conformance.Compiling
