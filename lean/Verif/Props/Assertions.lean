/-
C112: enabling assertions (`-ea`) changes nothing in a call; asking a `FloatForm` directly for a hexadecimal layout is
where it does.
-/
import Verif.Proofs.Assertions

namespace FastPrintf
open Spec

/-- The class of the bit masks can be loaded: its masks cover all bits and do not overlap. -/
theorem C112_masks (ea : Bool) : Assertions.initialise ea = .ok () ∧
    ∀ i : Fin 64, (Assertions.signMask.getLsbD i.val).toNat + (Assertions.expMask.getLsbD i.val).toNat +
      (Assertions.signifMask.getLsbD i.val).toNat = 1 := by
  refine ⟨by cases ea <;> decide, by decide⟩

/-- **Whole calls.**  Whatever the format and the arguments, a call ends in the same way and with the same text on a
virtual machine that evaluates the `assert` statements of the layouts and on one that skips them. -/
theorem C112_format (dates : DateSyntax) (env : DateEnv) (ea : Bool) (format : JStr) {args args' : List Traits}
    (h : List.Forall₂ (Asserting ea) args args') : printf dates env format args' = printf dates env format args := by
  apply printf_ready
  induction h with
  | nil => exact .nil
  | cons h _ ih => exact .cons (Assertions.alike env ea h) ih

/-- … and so into a builder that already holds text, which keeps the same characters if the call throws. -/
theorem C112_builder (dates : DateSyntax) (env : DateEnv) (ea : Bool) (format : JStr) {apps : List Appender}
    (hc : Compiler.compile dates format = .ok apps) {args args' : List Traits}
    (h : List.Forall₂ (Asserting ea) args args') (sb : JStr) :
    (runSB env apps args' sb).target = (runSB env apps args sb).target ∧
      ((runSB env apps args' sb).result.map fun _ => ()) = (runSB env apps args sb).result.map fun _ => () := by
  obtain ⟨ps, hr, rfl⟩ := (compile_iff dates format _).1 hc
  refine runSB_ready (fun a ha => ?_) sb ?_
  · obtain ⟨p, hp, rfl⟩ := List.mem_map.1 ha
    exact Piece.compiled_stored (hr.ok p hp)
  · clear hc
    induction h with
    | nil => exact .nil
    | cons h _ ih => exact .cons (Assertions.alike env ea h) ih

/-- … and so into any other `Appendable`. -/
theorem C112_appendable (dates : DateSyntax) (env : DateEnv) (ea : Bool) (format : JStr) {apps : List Appender}
    (hc : Compiler.compile dates format = .ok apps) {args args' : List Traits}
    (h : List.Forall₂ (Asserting ea) args args') {σ : Type} (k : Sink σ) (st : σ) :
    (runSink env k apps args' st).target = (runSink env k apps args st).target ∧
      ((runSink env k apps args' st).result.map fun _ => ()) = (runSink env k apps args st).result.map fun _ => () := by
  obtain ⟨ps, hr, rfl⟩ := (compile_iff dates format _).1 hc
  refine runSink_ready k (fun a ha => ?_) st ?_
  · obtain ⟨p, hp, rfl⟩ := List.mem_map.1 ha
    exact Piece.compiled_stored (hr.ok p hp)
  · clear hc
    induction h with
    | nil => exact .nil
    | cons h _ ih => exact .cons (Assertions.alike env ea h) ih

/-- **Slices.**  The buffer of a slice is never empty, for every consistent sequence and all indices. -/
theorem C112_slice (ea : Bool) (s : Seq) (h : s.WF) (i j : Int) :
    Assertions.subSequence ea s i j = s.subSequence i j := Assertions.subSequence_same ea h i j

/-- **Asked directly.**  A finite `double` and a precision that is not negative: no assertion fails. -/
theorem C112_hex (ea : Bool) (bits : BitVec 64) (hf : finite bits) (p : Int) (hp : 0 ≤ p) :
    (Assertions.ofDouble ea bits).hexLayout p = (FloatForm.ofDouble bits).hexLayout p ∧
      ∃ m ex, (Assertions.ofDouble ea bits).hexLayout p = .ok ⟨m, some ex⟩ := by
  have e : (Assertions.ofDouble ea bits).hexLayout p = (FloatForm.ofDouble bits).hexLayout p :=
    Assertions.hexLayout_same ea hf hp
  refine ⟨e, ?_⟩
  rw [e]
  by_cases h0 : p = 0
  · subst h0
    obtain ⟨m, ex, h, _⟩ := simpleHexLayout_ok bits
    refine ⟨m, ex, ?_⟩
    show DoubleWrapper.hexLayout bits 0 = _
    unfold DoubleWrapper.hexLayout
    rw [if_pos (by simp), h]
  · obtain ⟨q, rfl⟩ := Int.eq_ofNat_of_zero_le hp
    rcases (FloatForm.total_double hf).hex q (by omega) with h | ⟨e, h, he⟩
    · exact h
    · exfalso
      by_cases hz : magnitude bits = 0 ∨ 13 ≤ (q : Int)
      · obtain ⟨m, ex, h', _⟩ := simpleHexLayout_ok bits
        have : (FloatForm.ofDouble bits).hexLayout (q : Int) = .ok ⟨m, some ex⟩ := by
          show DoubleWrapper.hexLayout _ _ = _; rw [hexLayout_simple hz, h']
        rw [h] at this; cases this
      · push Not at hz
        obtain ⟨m, ex, _, _, h', _⟩ := DoubleWrapper.hexLayout_rounded hf hz.1 (q := q) (by omega) (by omega)
        have : (FloatForm.ofDouble bits).hexLayout (q : Int) = .ok ⟨m, some ex⟩ := h'
        rw [h] at this; cases this

/-- With assertions enabled a hexadecimal layout fails with an `AssertionError` exactly for `NaN`, the infinities, and
a negative precision of a value that is not zero.  It fails in no other way. -/
theorem C112_hex_enabled (bits : BitVec 64) (p : Int) (e : Err) :
    (Assertions.ofDouble true bits).hexLayout p = .error e ↔
      e = .assertion ∧ (¬ finite bits ∨ (p < 0 ∧ magnitude bits ≠ 0)) := by
  show Assertions.hexLayout true bits p = _ ↔ _
  by_cases hf : finite bits
  · by_cases hp : 0 ≤ p
    · obtain ⟨_, m, ex, h⟩ := C112_hex true bits hf p hp
      have h : Assertions.hexLayout true bits p = _ := h
      rw [h]
      simp [hf]; omega
    · by_cases h0 : magnitude bits = 0
      · obtain ⟨m, ex, h, _⟩ := simpleHexLayout_ok bits
        rw [Assertions.hexLayout_zero true h0, h]
        simp [hf, h0]
      · rw [Assertions.hexLayout_refused hf (by omega) h0]
        simp only [Except.error.injEq, hf, h0, not_true_eq_false, false_or, ne_eq, not_false_eq_true, and_true]
        constructor
        · rintro rfl; exact ⟨rfl, by omega⟩
        · rintro ⟨rfl, _⟩; rfl
  · rw [Assertions.hexLayout_special true hf]
    simp only [if_true, Except.error.injEq, hf, not_false_eq_true, true_or, and_true]
    exact eq_comm

/-- With assertions disabled `NaN` and the infinities throw another exception. -/
theorem C112_hex_disabled (bits : BitVec 64) (hf : ¬ finite bits) (p : Int) :
    (Assertions.ofDouble false bits).hexLayout p = .error .indexOutOfBounds :=
  Assertions.hexLayout_special false hf p

/-- With assertions disabled a negative precision is not refused: `-4` gives twelve digits, `-5` eleven, and so on
down to `-15` with one, and again from `-20`. -/
theorem C112_hex_negative (bits : BitVec 64) (hf : finite bits) (h0 : magnitude bits ≠ 0) (p : Int) (hp : p < 0)
    (hb : -500000000 ≤ p) (h1 : 1 ≤ p % 16) (h2 : p % 16 ≤ 12) :
    (Assertions.ofDouble false bits).hexLayout p = (FloatForm.ofDouble bits).hexLayout (p % 16) := by
  show Assertions.hexLayout false bits p = DoubleWrapper.hexLayout bits (p % 16)
  rw [Assertions.hexLayout_negative hf hp hb h1 h2 h0, Assertions.hexLayout_same false hf (by omega)]

/-! ### Witnesses -/

/-- The texts of a layout. -/
def hexTexts (r : Res FloatLayout) : Res (JStr × Option JStr) := r.map fun l => (l.mantissa.text, l.exponent.map Seq.text)

/-- The `double` nearest to one tenth. -/
example : hexTexts ((Assertions.ofDouble true 0x3FB999999999999A#64).hexLayout 3) =
    .ok (js! "1.99a", some (js! "-4")) := by decide +kernel
/-- The smallest `double`, asked for one digit: the assertions on the scaled exponent and on the shift are evaluated. -/
example : hexTexts ((Assertions.ofDouble true 1#64).hexLayout 1) = .ok (js! "1.0", some (js! "-1074")) := by
  decide +kernel
/-- The largest `double` rounds up past the largest exponent. -/
example : hexTexts ((Assertions.ofDouble true 0x7FEFFFFFFFFFFFFF#64).hexLayout 1) =
    .ok (js! "1.0", some (js! "+1024")) := by decide +kernel
/-- `NaN`, with and without assertions. -/
example : hexTexts ((Assertions.ofDouble true 0x7FF8000000000000#64).hexLayout 3) = .error .assertion ∧
    hexTexts ((Assertions.ofDouble false 0x7FF8000000000000#64).hexLayout 3) = .error .indexOutOfBounds := by
  decide +kernel
/-- One tenth with precision -13 (that is, -16 + 3): three digits without assertions, refused with them. -/
example : hexTexts ((Assertions.ofDouble false 0x3FB999999999999A#64).hexLayout (-13)) =
      .ok (js! "1.99a", some (js! "-4")) ∧
    hexTexts ((Assertions.ofDouble true 0x3FB999999999999A#64).hexLayout (-13)) = .error .assertion := by
  decide +kernel
/-- The bounds on `p % 16` matter: precision -1 of the number one is laid out as two … -/
example : hexTexts ((Assertions.ofDouble false 0x3FF0000000000000#64).hexLayout (-1)) =
    .ok (js! "1.0", some (js! "+1")) := by decide +kernel
/-- … and the largest value as a zero. -/
example : hexTexts ((Assertions.ofDouble false 0x7FEFFFFFFFFFFFFF#64).hexLayout (-1)) =
    .ok (js! "0.0", some (js! "+0")) := by decide +kernel
/-- An argument on both kinds of virtual machine. -/
example (jdk : JdkEnv) : Asserting true (doubleTraits jdk 0x3FB999999999999A#64 .primitive)
    { (doubleTraits jdk 0x3FB999999999999A#64 .primitive : Traits) with
      asFloatForm := .ok (Assertions.ofDouble true 0x3FB999999999999A#64) } := .double rfl
/-- A slice over two leaves. -/
example : ((Assertions.subSequence true ((Seq.wrap (js! "abc")).append (Seq.wrap (js! "def"))) 1 5).map Seq.text) =
    .ok (js! "bcde") := by decide +kernel

end FastPrintf
