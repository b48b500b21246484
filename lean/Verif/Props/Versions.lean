/-
C114: the version of the JDK that the library runs on changes no text; what a builder without room throws depends on it.
-/
import Verif.Proofs.Versions
import Verif.Props.Compile
import Verif.Props.Samples

namespace FastPrintf
open Spec Versions

/-- **C114.**  The layouts of a `double`, and its text by `DoubleToDecimal.toString`, are the same whether or not the JDK
has `Math.multiplyHigh`. -/
theorem C114_numbers (lib : Library) (bits : BitVec 64) :
    Versions.ofDouble lib bits = FloatForm.ofDouble bits ∧
    Versions.toDecimalString lib bits = DoubleToDecimal.toDecimalString bits :=
  ⟨ofDouble_same lib bits, by rw [toDecimalString_same]⟩

/-- **C114.**  So a call gives the same text, or throws the same, on every JDK. -/
theorem C114_format (lib : Library) (dates : DateSyntax) (env : DateEnv) (format : JStr) {args args' : List Traits}
    (h : List.Forall₂ (RunsOn lib) args args')
    (hc : ∀ apps, Compiler.compile dates format = .ok apps → Chars (FastPrintf.runSB env apps args []).target) :
    Versions.printf lib dates env format args' = FastPrintf.printf dates env format args := by
  rw [allRunsOn_same h]
  unfold Versions.printf FastPrintf.printf
  rcases hx : Compiler.compile dates format with e | apps
  · rfl
  · simp only [bind_ok]
    rw [runSB_same lib env apps args [] (hc apps hx)]
    rfl

/-- **C114.**  … and leaves the same in a builder that holds text, and the same arguments over. -/
theorem C114_builder (lib : Library) (env : DateEnv) (apps : List Appender) {args args' : List Traits}
    (h : List.Forall₂ (RunsOn lib) args args') (sb : JStr) (hc : Chars (FastPrintf.runSB env apps args sb).target) :
    Versions.runSB lib env apps args' sb = FastPrintf.runSB env apps args sb := by
  rw [allRunsOn_same h]
  exact runSB_same lib env apps args sb hc

/-- **C114.**  … and any other `Appendable` is given the same. -/
theorem C114_appendable (lib : Library) (env : DateEnv) (apps : List Appender) {args args' : List Traits}
    (h : List.Forall₂ (RunsOn lib) args args') {σ : Type} (k : Sink σ) (st : σ) :
    runSink env k apps args' st = runSink env k apps args st := by
  rw [allRunsOn_same h]

/-- **C114.**  Padding, on a builder that has room for `room` characters: if the characters fit they are written, on every
JDK.  If not, a JDK with `StringBuilder.repeat` gives a `RuntimeException` whose cause is the `OutOfMemoryError`, and
nothing is written; otherwise it is that error itself, and in one case the builder has been filled up. -/
theorem C114_padding (lib : Library) (room : Nat) (hr : room ≤ 2147483647) (c : JChar) (hc : c < 65536) (count : Nat)
    (hn : count ≤ 2147483647) (sb : JStr) (hs : sb.length ≤ room) :
    Versions.appendTo lib (some room) c count sb =
      if sb.length + count ≤ room then (none, sb ++ List.replicate count c)
      else if lib.repeat_ then (some (.runtime .outOfMemory), sb)
      else (some .outOfMemory, leftOver room c count sb) := by
  by_cases h : sb.length + count ≤ room
  · rw [if_pos h]
    exact appendTo_fits lib hc h (Nat.lt_succ_of_le hr)
  · rw [if_neg h]
    by_cases hl : lib.repeat_ = true
    · rw [if_pos hl]
      exact appendTo_repeat hl hc (Nat.lt_of_not_le h)
    · rw [if_neg hl]
      exact appendTo_own (Bool.eq_false_iff.2 hl) (Nat.lt_succ_of_le hn) (Nat.lt_of_not_le h) hs (Nat.lt_succ_of_le hr)

/-- **C114.**  So the exception tells the version: up to JDK 20 it is the error, from 21 on it is not. -/
theorem C114_versions (version room : Nat) (hr : room ≤ 2147483647) (c : JChar) (hc : c < 65536) (count : Nat)
    (hn : count ≤ 2147483647) (sb : JStr) (hs : sb.length ≤ room) (h : room < sb.length + count) :
    (Versions.appendTo (.ofVersion version) (some room) c count sb).1 =
      some (if 21 ≤ version then .runtime .outOfMemory else .outOfMemory) := by
  rw [C114_padding _ room hr c hc count hn sb hs, if_neg (Nat.not_le_of_lt h)]
  by_cases hv : 21 ≤ version
  · rw [if_pos (show (Library.ofVersion version).repeat_ = true from decide_eq_true hv), if_pos hv]
  · rw [if_neg (show ¬ (Library.ofVersion version).repeat_ = true by
      show ¬ decide (21 ≤ version) = true
      simpa using hv), if_neg hv]

/-! Samples: both ways are taken, and the hypotheses hold for ordinary calls. -/

example : [8, 17, 21].map (fun v => Versions.printf (.ofVersion v) sampleDates sampleDateEnv (js! "%20.3f|%-3d|")
      [{ doubleTraits sampleJdk 0x3FF8000000000000#64 .primitive with
          asFloatForm := .ok (Versions.ofDouble (.ofVersion v) 0x3FF8000000000000#64) }, intTraits 7#32 .primitive]) =
    List.replicate 3 (.ok (js! "               1.500|7  |")) := by decide +kernel

example (v : Nat) : RunsOn (.ofVersion v) (doubleTraits sampleJdk 0x3FF8000000000000#64 .primitive)
    { doubleTraits sampleJdk 0x3FF8000000000000#64 .primitive with
      asFloatForm := .ok (Versions.ofDouble (.ofVersion v) 0x3FF8000000000000#64) } := .double rfl

/-- Twenty blanks do not fit behind three characters where there is room for ten. -/
example : [8, 21].map (fun v => Versions.appendTo (.ofVersion v) (some 10) (ch! ' ') 20 (js! "abc")) =
    [(some .outOfMemory, js! "abc"), (some (.runtime .outOfMemory), js! "abc")] := by decide +kernel

example : Versions.appendTo (.ofVersion 8) (some 10) (ch! ' ') 7 (js! "abc") = (none, js! "abc       ") := by
  decide +kernel

/-- The fallback is another program: it multiplies in four parts. -/
example : (Versions.multiplyHigh (.ofVersion 8) 0xFFFFFFFFFFFFFFFF#64 3#64,
    Versions.multiplyHigh (.ofVersion 9) 0xFFFFFFFFFFFFFFFF#64 3#64) = (-1#64, -1#64) := by decide +kernel

end FastPrintf
