/-
The checks of src/test/java/io/fastprintf/seq/AtomicSeqIterableTest.java, whose composite is of a class of its own.
-/
import Verif.Spec.OwnComposite

namespace FastPrintf.Conformance.OwnComposites

open Own

/-- `TestIterable(parts)`. -/
def testIterable (parts : List Atomic) : Compound Atomic :=
  .own ⟨(parts.map Atomic.length).sum, parts.length, ⟨parts, none⟩,
      .ok (parts.flatMap fun a => match a.toStr with | .ok s => s | .error _ => [])⟩
    (.atom (parts.head?.getD .empty)) (parts.tail.map .atom)

/-- The composite of `setUp`. -/
def iterable : Compound Atomic :=
  testIterable [Atomic.wrap (js! "AB"), Atomic.wrap (js! "C"), Atomic.wrap (js! "DEFG")]

/-- What `subSequence(i, j).toString()` gives. -/
def cut (i j : Int) : Res JStr := do (← iterable.subSequence libraryLeaves i j).toStr libraryLeaves

/-- test_charAt, test_charAt_OutOfBounds. -/
example : iterable.length libraryLeaves = 7 ∧ iterable.charAt libraryLeaves 0 = .ok (ch! 'A') ∧
    iterable.charAt libraryLeaves 2 = .ok (ch! 'C') ∧ iterable.charAt libraryLeaves 3 = .ok (ch! 'D') ∧
    iterable.charAt libraryLeaves 6 = .ok (ch! 'G') ∧
    iterable.charAt libraryLeaves 7 = .error .indexOutOfBounds := by decide +kernel

/-- test_subSequence. -/
example : cut 3 5 = .ok (js! "DE") ∧ cut 1 3 = .ok (js! "BC") ∧ cut 1 7 = .ok (js! "BCDEFG") ∧
    cut 0 7 = .ok (js! "ABCDEFG") ∧ cut 3 3 = .ok [] := by decide +kernel

/-- test_appendTo. -/
example : iterable.appendToSB libraryLeaves [] = .ok (js! "ABCDEFG") ∧
    (iterable.appendToCalls libraryLeaves).map List.flatten = .ok (js! "ABCDEFG") := by decide +kernel

/-- test_indexOf. -/
example : iterable.indexOf libraryLeaves (ch! 'A') = .ok 0 ∧ iterable.indexOf libraryLeaves (ch! 'C') = .ok 2 ∧
    iterable.indexOf libraryLeaves (ch! 'E') = .ok 4 ∧
    iterable.indexOf libraryLeaves (ch! 'z') = .ok (-1) := by decide +kernel

/-- test_upperCase. -/
example : (do (← iterable.upperCase libraryLeaves).toStr libraryLeaves) = .ok (js! "ABCDEFG") ∧
    (do return (← iterable.upperCase libraryLeaves).length libraryLeaves) = .ok 7 := by decide +kernel

/-- The same after something else, where it is unfolded. -/
example : ((Compound.atom (Atomic.wrap (js! "<"))).append libraryLeaves iterable).toStr libraryLeaves =
    .ok (js! "<ABCDEFG") := by decide +kernel

end FastPrintf.Conformance.OwnComposites
