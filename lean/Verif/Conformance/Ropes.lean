/-
The calls of src/test/java/io/fastprintf/seq/{CharArrayTest,ConcatTest,EmptySeqTest,LazySeqTest,RepeatedTest,
SeqArrayTest,SeqTest,StrViewTest}.java with literal expectations, evaluated in the model.  Questions of object identity
and the tests that change an array are not here (for the latter see Props/Views).
-/
import Verif.Conformance.Run

namespace FastPrintf.Conformance.Ropes

open Atomic

/-- `"Hello World".toCharArray()` from `start`, `n` characters. -/
def chars (start n : Nat) : Atomic := charArray (js! "Hello World") start n false
/-- `Seq.wrap(s).upperCase()`. -/
def up (s : JStr) : Res Atomic := (Atomic.wrap s).upperCase
def W (s : JStr) : Seq := Seq.wrap s
/-- The texts of the leaves, in the order of the iterator. -/
def parts (q : Seq) : Res (List JStr) := do (← q.leaves).mapM Atomic.toStr

/-! ## CharArrayTest -/

example : (forArrayRange (js! "Hello World") 6 5) = .ok (chars 6 5) := by decide +kernel
example : (chars 6 5).toStr = .ok (js! "World") := by decide +kernel
example : [chars 0 11, chars 6 5, chars 5 0].map Atomic.length = [11, 5, 0] := by decide +kernel
example : [0, 5, 10].map (chars 0 11).charAt = [.ok (ch! 'H'), .ok (ch! ' '), .ok (ch! 'd')] := by decide +kernel
example : [-1, 5].map (chars 0 5).charAt = [.error .indexOutOfBounds, .error .indexOutOfBounds] := by decide +kernel
example : (chars 0 11).subSequence 1 5 = .ok (chars 1 4) := by decide +kernel
example : (do ((← (chars 0 11).upperCase).subSequence 1 5 >>= toStr)) = .ok (js! "ELLO") := by decide +kernel
example : (chars 0 11).subSequence 1 2 = .ok (repeated (ch! 'e') 1) := by decide +kernel
example : (do (← (chars 0 11).upperCase).subSequence 1 2) = .ok (repeated (ch! 'E') 1) := by decide +kernel
example : (chars 0 11).subSequence 5 5 = .ok empty := by decide +kernel
example : [(chars 0 11).subSequence 5 4, (chars 0 11).subSequence (-1) 4, (chars 0 11).subSequence 0 12] =
    [.error .indexOutOfBounds, .error .indexOutOfBounds, .error .indexOutOfBounds] := by decide +kernel
example : (do (← (chars 0 11).upperCase).toStr) = .ok (js! "HELLO WORLD") := by decide +kernel
example : (js! "abzc").map (forArray (js! "abracadabra")).indexOf = [.ok 0, .ok 1, .ok (-1), .ok 4] := by decide +kernel
example : (do (js! "ABaz").mapM (← (forArray (js! "abracadabra")).upperCase).indexOf) = .ok [0, 1, -1, -1] := by
  decide +kernel
example : (do (js! "E1!e").mapM (← (forArray (js! "Test 123!")).upperCase).indexOf) = .ok [1, 5, 8, -1] := by
  decide +kernel
example : (do (js! "acb").mapM (← (forArray (js! "abracadabra")).subSequence 4 8).indexOf) = .ok [1, 0, -1] := by
  decide +kernel
example : (do (js! "AaCB").mapM (← (← (forArray (js! "abracadabra")).subSequence 4 8).upperCase).indexOf) =
    .ok [1, -1, 0, -1] := by decide +kernel
example : (chars 1 4).appendToSB [] = .ok (js! "ello") := by decide +kernel
example : (do (← (chars 1 4).upperCase).appendToSB []) = .ok (js! "ELLO") := by decide +kernel
example : (do (← (forArray (js! "Hello World, this is a larger string to test appendTo functionality.")).upperCase).appendToSB []) =
    .ok (js! "HELLO WORLD, THIS IS A LARGER STRING TO TEST APPENDTO FUNCTIONALITY.") := by decide +kernel
example : (chars 5 0).appendToSB (js! "start-") = .ok (js! "start-") := by decide +kernel
example : (charArray (js! "012345") 1 4 false).toStr = .ok (js! "1234") := by decide +kernel
example : (charArray (js! "ab-cd-ef") 2 4 true).toStr = .ok (js! "-CD-") := by decide +kernel
example : (chars 5 0).toStr = .ok [] := by decide +kernel

/-! ## ConcatTest -/

def hello : Seq := .mkConcat (W (js! "Hello")) (W (js! " World"))
example : hello.length = 11 ∧ hello.elementCount = 2 ∧ hello.toStr = .ok (js! "Hello World") := by decide +kernel
example : [0, 4, 5, 10].map hello.charAt = [.ok (ch! 'H'), .ok (ch! 'o'), .ok (ch! ' '), .ok (ch! 'd')] := by
  decide +kernel
example : [-1, 3].map (Seq.mkConcat (W (js! "a")) (W (js! "b"))).charAt =
    [.error .indexOutOfBounds, .error .indexOutOfBounds] := by decide +kernel
def tenLetters : Seq := .mkConcat (W (js! "abcde")) (W (js! "fghij"))
example : [(0, 10), (1, 4), (6, 9), (3, 7), (5, 5), (0, 1)].mapM
      (fun p : Int × Int => do (← tenLetters.subSequence p.1 p.2).toStr) =
    .ok [js! "abcdefghij", js! "bcd", js! "ghi", js! "defg", [], js! "a"] := by decide +kernel
def baseSeq : Seq := .mkConcat (W (js! "Base")) (W (js! "Seq"))
example : (baseSeq.prepend (W (js! "Prefix-"))).toStr = .ok (js! "Prefix-BaseSeq") ∧
    (baseSeq.prepend (W (js! "Prefix-"))).length = 14 ∧
    (baseSeq.append (W (js! "-Suffix"))).toStr = .ok (js! "BaseSeq-Suffix") ∧
    (baseSeq.append (W (js! "-Suffix"))).length = 14 ∧
    (((W (js! "Prefix-")).append baseSeq).append (W (js! "-Suffix"))).toStr = .ok (js! "Prefix-BaseSeq-Suffix") ∧
    (((W (js! "Prefix-")).append baseSeq).append (W (js! "-Suffix"))).length = 21 := by decide +kernel
example : (Seq.mkConcat (W (js! "text")) Seq.empty).toStr = .ok (js! "text") ∧
    (Seq.mkConcat Seq.empty (W (js! "text"))).toStr = .ok (js! "text") ∧
    (W (js! "text")).append Seq.empty = W (js! "text") ∧ (W (js! "text")).prepend Seq.empty = W (js! "text") := by
  decide +kernel
example : (js! "abnmz").map (Seq.mkConcat (W (js! "banana")) (W (js! "rama"))).indexOf =
    [.ok 1, .ok 0, .ok 2, .ok 8, .ok (-1)] := by decide +kernel
example : (do (← (Seq.mkConcat (W (js! "Hello")) (W (js! " World 123"))).upperCase).toStr) =
    .ok (js! "HELLO WORLD 123") := by decide +kernel
def ab : Seq := .mkConcat (W (js! "A")) (W (js! "B"))
example : parts ab = .ok [js! "A", js! "B"] := by decide +kernel
example : parts (.mkConcat ab (.mkConcat (W (js! "C")) (W (js! "D")))) =
    .ok [js! "A", js! "B", js! "C", js! "D"] := by decide +kernel
example : (Seq.mkConcat ab (.mkConcat (W (js! "C")) (W (js! "D")))).elementCount = 4 := by decide +kernel
example : parts ((((W (js! "A")).append (W (js! "B"))).append (W (js! "C"))).append (W (js! "D"))) =
    .ok [js! "A", js! "B", js! "C", js! "D"] := by decide +kernel
example : parts (.mkConcat ab (.array [Atomic.wrap (js! "C"), Atomic.wrap (js! "D")] 2)) =
    .ok [js! "A", js! "B", js! "C", js! "D"] := by decide +kernel

/-! ## EmptySeqTest -/

example : Seq.empty.length = 0 ∧ Seq.empty.isEmpty = true ∧ Seq.empty.toStr = .ok [] ∧
    Seq.empty.indexOf (ch! 'a') = .ok (-1) ∧ Seq.empty.elementCount = 1 ∧
    Seq.empty.append (W (js! "test")) = W (js! "test") ∧ Seq.empty.prepend (W (js! "test")) = W (js! "test") ∧
    Seq.empty.appendToSB (js! "start") = .ok (js! "start") ∧ Seq.empty.appendToCalls = .ok [] ∧
    Seq.empty.upperCase = .ok Seq.empty ∧ Seq.empty.charAt 0 = .error .indexOutOfBounds ∧
    Seq.empty.subSequence 0 0 = .ok Seq.empty ∧ Seq.empty.subSequence 0 1 = .error .illegalArgument ∧
    Seq.empty.subSequence 1 1 = .error .illegalArgument := by decide +kernel

/-! ## LazySeqTest and the lazy part of SeqTest -/

example : (Atomic.lazy (js! "123") 5).toStr = .error .illegalState := by decide +kernel
example : (Atomic.lazy (js! "12345") 3).toStr = .error .illegalState := by decide +kernel
example : (Atomic.lazy (js! "test") 4).length = 4 := by decide +kernel
example : (Atomic.lazy (js! "foo") 3).toStr = .ok (js! "foo") := by decide +kernel
example : (Atomic.lazy (js! "fast") 4).appendToSB [] = .ok (js! "fast") := by decide +kernel
example : (Atomic.lazy (js! "generic") 7).appendToCalls = .ok [js! "generic"] := by decide +kernel
example : [0, 1, 2].map (Atomic.lazy (js! "ABC") 3).charAt = [.ok (ch! 'A'), .ok (ch! 'B'), .ok (ch! 'C')] := by
  decide +kernel
example : (do (← (Atomic.lazy (js! "012345") 6).subSequence 2 4).toStr) = .ok (js! "23") := by decide +kernel
example : (Atomic.lazy (js! "123") 3).subSequence 0 4 = .error .indexOutOfBounds := by decide +kernel
example : (do (← (Atomic.lazy (js! "lower") 5).upperCase).toStr) = .ok (js! "LOWER") := by decide +kernel
example : (Atomic.lazy (js! "ID: 42, Name: Test") 18).toStr = .ok (js! "ID: 42, Name: Test") := by decide +kernel
example : mkLazy (js! "fail") 0 = .ok empty := by decide +kernel
example : mkLazy (js! "A") 1 = .ok (repeated (ch! 'A') 1) := by decide +kernel
example : mkLazy (js! "AB") 1 = .error .illegalState := by decide +kernel
example : mkLazy (js! "Hello") 5 = .ok (.lazy (js! "Hello") 5) := by decide +kernel
example : mkLazy [] (-1) = .error .illegalArgument := by decide +kernel

/-! ## RepeatedTest -/

example : [(repeated (ch! 'a') 5).length, (Atomic.ch (ch! 'a')).length, (repeated (ch! 'a') 0).length] = [5, 1, 0] := by
  decide +kernel
example : [0, 10, 19, -1, 20].map (repeated (ch! '*') 20).charAt =
    [.ok (ch! '*'), .ok (ch! '*'), .ok (ch! '*'), .error .indexOutOfBounds, .error .indexOutOfBounds] := by
  decide +kernel
example : (js! "bx").map (repeated (ch! 'b') 10).indexOf = [.ok 0, .ok (-1)] := by decide +kernel
example : (repeated (ch! 'b') 0).indexOf (ch! 'b') = .ok (-1) := by decide +kernel
example : (repeated (ch! 'z') 10).subSequence 2 7 = .ok (repeated (ch! 'z') 5) := by decide +kernel
example : (repeated (ch! 'z') 10).subSequence 5 5 = .ok empty := by decide +kernel
example : (repeated (ch! 'a') 5).upperCase = .ok (repeated (ch! 'A') 5) := by decide +kernel
example : (repeated (ch! '7') 3).upperCase = .ok (repeated (ch! '7') 3) := by decide +kernel
example : [Atomic.ch (ch! 'c'), repeated (ch! '*') 5, repeated (ch! '*') 0].map toStr =
    [.ok (js! "c"), .ok (js! "*****"), .ok []] := by decide +kernel
example : (repeated (ch! 'x') 5).appendToSB [] = .ok (js! "xxxxx") := by decide +kernel
example : (repeated (ch! 'y') 20).appendToSB [] = .ok (js! "yyyyyyyyyyyyyyyyyyyy") := by decide +kernel
example : (do return (← (repeated (ch! 'z') 10).appendToCalls).flatten) = (.ok (js! "zzzzzzzzzz") : Res JStr) := by
  decide +kernel
example : (repeated (ch! 'a') 0).appendToSB (js! "start-") = .ok (js! "start-") := by decide +kernel

/-! ## SeqArrayTest -/

def arr : Seq := .array [Atomic.wrap (js! "A"), Atomic.wrap (js! "BC"), Atomic.wrap (js! "def")] 6
example : arr.length = 6 ∧ arr.toStr = .ok (js! "ABCdef") ∧ parts arr = .ok [js! "A", js! "BC", js! "def"] := by
  decide +kernel
example : (do (← arr.upperCase).toStr) = .ok (js! "ABCDEF") := by decide +kernel
example : [0, 1, 2, 3, 5, 6].map arr.charAt = [.ok (ch! 'A'), .ok (ch! 'B'), .ok (ch! 'C'), .ok (ch! 'd'),
    .ok (ch! 'f'), .error .indexOutOfBounds] := by decide +kernel
example : [(1, 3), (2, 5), (0, 3), (3, 6)].mapM (fun p : Int × Int => do (← arr.subSequence p.1 p.2).toStr) =
    .ok [js! "BC", js! "Cde", js! "ABC", js! "def"] := by decide +kernel
example : (js! "ACez").map arr.indexOf = [.ok 0, .ok 2, .ok 4, .ok (-1)] := by decide +kernel

/-! ## SeqTest -/

example : Seq.ch (ch! 'a') = .atom (repeated (ch! 'a') 1) := by decide +kernel
example : (Seq.repeated (ch! 'x') 5) = .ok (.atom (repeated (ch! 'x') 5)) := by decide +kernel
example : (Seq.repeated (ch! 'x') 0) = .error .illegalArgument := by decide +kernel
example : Atomic.wrap (js! "hello") = strView (js! "hello") 0 5 false ∧
    Atomic.wrap (js! "a") = repeated (ch! 'a') 1 ∧ Atomic.wrap [] = empty := by decide +kernel
example : (do (← wrapRange (js! "hello") 2 5).toStr) = .ok (js! "llo") := by decide +kernel
example : (do (← wrapRange (js! "hello") 3 5).toStr) = .ok (js! "lo") := by decide +kernel
example : wrapRange (js! "hello") 2 2 = .ok empty ∧ wrapRange (js! "hello") 1 2 = .ok (repeated (ch! 'e') 1) := by
  decide +kernel
example : (forArray (js! "abcd")).toStr = .ok (js! "abcd") := by decide +kernel
example : (do (← forArrayRange (js! "abcd") 1 2).toStr) = .ok (js! "bc") := by decide +kernel
example : (Seq.join [Atomic.wrap (js! "A"), Atomic.wrap (js! "B"), Atomic.wrap (js! "C")]).toStr = .ok (js! "ABC") := by
  decide +kernel
example : Seq.join [] = Seq.empty ∧ Seq.join [Atomic.wrap (js! "single")] = W (js! "single") := by decide +kernel
example : ((W (js! "base")).prepend (W (js! "PREFIX"))).toStr = .ok (js! "PREFIXbase") ∧
    ((W (js! "base")).append (W (js! "SUFFIX"))).toStr = .ok (js! "baseSUFFIX") := by decide +kernel
def oneTwo : Seq := .mkConcat (W (js! "one")) (W (js! "two"))
example : oneTwo.appendToSB [] = .ok (js! "onetwo") ∧
    (do return (← oneTwo.appendToCalls).flatten) = (.ok (js! "onetwo") : Res JStr) := by decide +kernel
example : (js! "abcz").map (Seq.mkConcat (W (js! "ab")) (W (js! "ca"))).indexOf = [.ok 0, .ok 1, .ok 2, .ok (-1)] := by
  decide +kernel
example : (W (js! "test")).startsWith (ch! 't') = .ok true ∧ (W (js! "test")).startsWith (ch! 'e') = .ok false ∧
    Seq.empty.startsWith (ch! 'x') = .ok false := by decide +kernel

/-! ## StrViewTest -/

def text : JStr := js! "Hello World!"
def index : JStr := js! "Test 123! Mixed-Case"
example : (do (← wrapRange text 6 11).toStr) = .ok (js! "World") := by decide +kernel
example : (wrapRange text 6 11).map Atomic.length = .ok 5 ∧ (wrapRange text 5 5).map Atomic.length = .ok 0 := by
  decide +kernel
example : [0, 5, 11].map (Atomic.wrap text).charAt = [.ok (ch! 'H'), .ok (ch! ' '), .ok (ch! '!')] := by decide +kernel
example : (do (← wrapRange text 0 5).charAt 5) = .error .indexOutOfBounds := by decide +kernel
example : (do (← (Atomic.wrap text).subSequence 1 5).toStr) = .ok (js! "ello") := by decide +kernel
example : (do (← (← (← wrapRange text 0 11).subSequence 6 11).subSequence 1 4).toStr) = .ok (js! "orl") := by
  decide +kernel
example : (do (← up text).toStr) = .ok (js! "HELLO WORLD!") := by decide +kernel
example : (do (← (← up text).subSequence 1 5).toStr) = .ok (js! "ELLO") := by decide +kernel
example : (do [0, 1, 5, 11].mapM (← up text).charAt) = .ok (js! "HE !") := by decide +kernel
example : (do (← wrapRange text 1 5).appendToSB []) = .ok (js! "ello") := by decide +kernel
example : (do (← (← wrapRange text 1 5).upperCase).appendToSB []) = .ok (js! "ELLO") := by decide +kernel
def long : JStr := js! "This is a string that is longer than sixteen characters."
example : (do (← wrapRange long 0 10).appendToSB []) = .ok (js! "This is a ") := by decide +kernel
example : (do (← wrapRange long 0 20).appendToSB []) = .ok (js! "This is a string tha") := by decide +kernel
example : (Atomic.wrap long).appendToSB [] = .ok long := by decide +kernel
example : (do return (← (← (← wrapRange text 6 11).upperCase).appendToCalls).flatten) = (.ok (js! "WORLD") : Res JStr) := by
  decide +kernel
example : (js! "Hl!z").map (Atomic.wrap text).indexOf = [.ok 0, .ok 2, .ok 11, .ok (-1)] := by decide +kernel
example : (do (js! "HLlz").mapM (← up text).indexOf) = .ok [0, 2, -1, -1] := by decide +kernel
example : (js! "Te1!Z").map (Atomic.wrap index).indexOf = [.ok 0, .ok 1, .ok 5, .ok 8, .ok (-1)] := by decide +kernel
example : (do (js! "e 2!-@").mapM (← up index).indexOf) = .ok [-1, 4, 6, 8, 15, -1] := by decide +kernel
example : (do (js! "ETMCSZ").mapM (← up index).indexOf) = .ok [1, 0, 10, 16, 2, -1] := by decide +kernel
example : (do (js! "MCT").mapM (← (← wrapRange index 10 20).upperCase).indexOf) = .ok [0, 6, -1] := by decide +kernel

end FastPrintf.Conformance.Ropes
