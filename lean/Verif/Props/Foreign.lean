/-
C68: a `CharSequence` of a foreign class.

`%s`, `%S` and `%c` use its `length()` and `charAt`, the numeric conversions and `*` its `toString()`.  A class
for which these differ therefore prints differently under the two.
-/
import Verif.Model.Foreign
import Verif.Props.Questions
import Verif.Props.Semantics

namespace FastPrintf
open Spec

/-- `length()` and `charAt` describe the text `s`. -/
structure Spec.Spells (q : ForeignSeq) (s : JStr) : Prop where
  length : q.length = .ok s.length
  charAt : ∀ (i : Nat) (c : JChar), s[i]? = some c → q.charAt i = .ok c

/-- The questions answered from the characters, and those answered from `toString()`. -/
def Spec.fromCharacters : List Question := [.text, .character]
def Spec.fromToString : List Question := [.count, .integer, .floating]

theorem ForeignSeq.chars_ok {q : ForeignSeq} {s : JStr} (h : ∀ (i : Nat) (c : JChar), s[i]? = some c → q.charAt i = .ok c)
    {i n : Nat} (hn : i + n = s.length) : q.chars i n = .ok (s.drop i) := by
  induction n generalizing i with
  | zero => rw [List.drop_of_length_le (by omega)]; rfl
  | succ n ih =>
    have hi : i < s.length := by omega
    rw [ForeignSeq.chars, h i s[i] (List.getElem?_eq_getElem hi), bind_ok, ih (by omega), bind_ok,
      List.drop_eq_getElem_cons hi]
    rfl

theorem ForeignSeq.chars_error {q : ForeignSeq} {k : Nat} {e : Err} (hk : q.charAt k = .error e)
    (h : ∀ i < k, ∃ c, q.charAt i = .ok c) {i n : Nat} (h1 : i ≤ k) (h2 : k < i + n) :
    q.chars i n = .error e := by
  induction n generalizing i with
  | zero => omega
  | succ n ih =>
    rw [ForeignSeq.chars]
    by_cases hi : i = k
    · rw [hi, hk]; rfl
    · obtain ⟨c, hc⟩ := h i (by omega)
      rw [hc, bind_ok, ih (by omega) (by omega)]; rfl

theorem ForeignSeq.asSeq_ok {q : ForeignSeq} {s : JStr} (h : Spells q s) :
    q.asSeq = (do return Seq.atom (← Atomic.mkLazy s s.length) : Res Seq) := by
  unfold ForeignSeq.asSeq
  rw [h.length, bind_ok, Int.toNat_natCast, chars_ok h.charAt (by omega)]
  simp only [List.drop_zero]

/-- The answers of a foreign sequence that spells `s`. -/
theorem C68_answers (jdk : JdkEnv) (q : ForeignSeq) (id : Identity) (s : JStr) (h : Spells q s) :
    (∀ x ∈ fromCharacters, SameAnswer (q.traits jdk id) ((Entry.ref (.charSeq s id)).toTraits jdk) x) ∧
    ∀ u, q.toStr = .ok u →
      ∀ x ∈ fromToString, SameAnswer (q.traits jdk id) ((Entry.ref (.string u id)).toTraits jdk) x := by
  constructor
  · intro x hx
    simp only [fromCharacters, List.mem_cons, List.not_mem_nil, or_false] at hx
    rcases hx with rfl | rfl
    · exact ForeignSeq.asSeq_ok h
    · simp only [SameAnswer, ForeignSeq.traits, h.length, bind_ok, Entry.toTraits, Obj.toTraits,
        charSequenceTraits]
      cases s with
      | nil => rfl
      | cons c s => rw [if_pos (by simp), h.charAt 0 c rfl]
  · intro u hu x hx
    simp only [fromToString, List.mem_cons, List.not_mem_nil, or_false] at hx
    rcases hx with rfl | rfl | rfl <;>
      simp only [SameAnswer, ForeignSeq.traits, hu, bind_ok, Entry.toTraits, Obj.toTraits,
        charSequenceTraits]

/-- A directive without `*` applied to arguments that give the same answer. -/
theorem printf_sameAnswer (dates : DateSyntax) (env : DateEnv) (d : Directive) (h : d.Ok dates)
    (hp : d.Plain) {t t' : Traits} (ha : SameAnswer t t' (question d.conv)) (rest : List Traits) :
    printf dates env d.text (t :: rest) = printf dates env d.text (t' :: rest) := by
  rw [question_conv d.conv h.conv] at ha
  rw [printf_plain h hp, printf_plain h hp, formatterFor_same ha]

/-- **C68.**  `%s`, `%S` and `%c` print a foreign sequence as the text that `length()` and `charAt` spell. -/
theorem C68_characters (dates : DateSyntax) (env : DateEnv) (jdk : JdkEnv) (d : Directive) (h : d.Ok dates)
    (hp : d.Plain) (hc : d.conv ∈ js! "sSc") (q : ForeignSeq) (id : Identity) (s : JStr) (hq : Spells q s)
    (rest : List Traits) :
    printf dates env d.text (q.traits jdk id :: rest) =
      printf dates env d.text ((Entry.ref (.charSeq s id)).toTraits jdk :: rest) := by
  refine printf_sameAnswer dates env d h hp ((C68_answers jdk q id s hq).1 _ ?_) rest
  exact (by decide : ∀ c ∈ js! "sSc", question c ∈ fromCharacters) _ hc

/-- **C68.**  Under `%s` that is the text, cut and padded; `toString()` does not matter. -/
theorem C68_s (dates : DateSyntax) (env : DateEnv) (jdk : JdkEnv) (d : Directive) (h : d.Ok dates)
    (hp : d.Plain) (hc : d.conv = ch! 's') (q : ForeignSeq) (id : Identity) (s : JStr) (hq : Spells q s)
    (rest : List Traits) :
    printf dates env d.text (q.traits jdk id :: rest) = .ok (d.padded (cut d.prec.precision s)) := by
  rw [C68_characters dates env jdk d h hp (by rw [hc]; decide) q id s hq rest,
    C54_s dates env jdk d h hp hc _ (.ok s) (.shows (.charSeq s id)) rest]
  rfl

/-- **C68.**  The numeric conversions read a foreign sequence as they read the string that its `toString()`
returns; its characters do not matter. -/
theorem C68_toString (dates : DateSyntax) (env : DateEnv) (jdk : JdkEnv) (d : Directive) (h : d.Ok dates)
    (hp : d.Plain) (hc : d.conv ∈ js! "diuoxXfFeEgGaA") (q : ForeignSeq) (id : Identity) (u : JStr)
    (hu : q.toStr = .ok u) (rest : List Traits) :
    printf dates env d.text (q.traits jdk id :: rest) =
      printf dates env d.text ((Entry.ref (.string u id)).toTraits jdk :: rest) := by
  refine printf_sameAnswer dates env d h hp ?_ rest
  have := (by decide : ∀ c ∈ js! "diuoxXfFeEgGaA", question c = .integer ∨ question c = .floating) _ hc
  rcases this with hx | hx <;> rw [hx] <;>
    simp only [SameAnswer, ForeignSeq.traits, hu, bind_ok, Entry.toTraits, Obj.toTraits, charSequenceTraits]

/-- **C68.**  If `toString()` returns the spelled text, then the argument is one of the sequences that the
other properties speak of. -/
theorem C68_consistent (jdk : JdkEnv) (q : ForeignSeq) (id : Identity) (s : JStr) (h : Spells q s)
    (hs : q.toStr = .ok s) : q.traits jdk id = (Entry.ref (.charSeq s id)).toTraits jdk := by
  have h1 := (C68_answers jdk q id s h).1
  have h2 := (C68_answers jdk q id s h).2 s hs
  have e1 := h1 .text (by decide)
  have e2 := h1 .character (by decide)
  have e3 := h2 .count (by decide)
  have e4 := h2 .integer (by decide)
  have e5 := h2 .floating (by decide)
  simp only [SameAnswer, Entry.toTraits, Obj.toTraits] at e1 e2 e3 e4 e5
  simp only [Entry.toTraits, Obj.toTraits]
  cases hx : q.traits jdk id
  rw [hx] at e1 e2 e3 e4 e5
  simp only at e1 e2 e3 e4 e5
  have e6 : (q.traits jdk id).asTemporal = noTemporal := rfl
  have e7 : (q.traits jdk id).ref = id.ref := rfl
  rw [hx] at e6 e7
  simp only at e6 e7
  rw [e1, e2, e3, e4, e5, e6, e7]
  rfl

/-- **C68.**  Exceptions of the three methods: the conversions that call the method end with its exception
(by `C67_refusal`); a negative `length()` is an `IllegalArgumentException` under `%s`.  A `charAt` that throws is
noticed when the sequence is asked for if there is one character; otherwise when it is cut, upper-cased or
written (C74). -/
theorem C68_exceptions (jdk : JdkEnv) (q : ForeignSeq) (id : Identity) :
    (∀ e, q.toStr = .error e → ∀ x ∈ fromToString, Refuses (q.traits jdk id) e x) ∧
    (∀ e, q.length = .error e → ∀ x ∈ fromCharacters, Refuses (q.traits jdk id) e x) ∧
    (∀ n, q.length = .ok n → n < 0 →
      Refuses (q.traits jdk id) .illegalArgument .text ∧ Refuses (q.traits jdk id) (refused .emptyToChar) .character) ∧
    (∀ (n k : Nat) e, q.length = .ok (n : Int) → k < n → q.charAt k = .error e →
      (∀ i < k, ∃ c, q.charAt i = .ok c) →
      (n = 1 → Refuses (q.traits jdk id) e .text) ∧
      (2 ≤ n → (q.traits jdk id).asSeq = .ok (.atom (.failing q.left n e))) ∧
      (k = 0 → Refuses (q.traits jdk id) e .character)) := by
  refine ⟨?_, ?_, ?_, ?_⟩
  · intro e he x hx
    simp only [fromToString, List.mem_cons, List.not_mem_nil, or_false] at hx
    rcases hx with rfl | rfl | rfl <;> simp only [Refuses, ForeignSeq.traits, he] <;> rfl
  · intro e he x hx
    simp only [fromCharacters, List.mem_cons, List.not_mem_nil, or_false] at hx
    rcases hx with rfl | rfl <;> simp only [Refuses, ForeignSeq.traits, ForeignSeq.asSeq, he] <;> rfl
  · intro n hn hneg
    constructor
    · simp only [Refuses, ForeignSeq.traits, ForeignSeq.asSeq, hn, bind_ok]
      rw [show n.toNat = 0 by omega]
      simp only [ForeignSeq.chars, Atomic.mkLazy]
      rw [if_neg (by omega)]; rfl
    · simp only [Refuses, ForeignSeq.traits, hn, bind_ok]
      rw [if_neg (by omega)]; rfl
  · intro n k e hn hk he hi
    refine ⟨?_, ?_, ?_⟩
    · rintro rfl
      simp only [Refuses, ForeignSeq.traits, ForeignSeq.asSeq, hn, bind_ok, Int.toNat_natCast]
      rw [ForeignSeq.chars_error he hi (by omega) (by omega)]; rfl
    · intro h2
      simp only [ForeignSeq.traits, ForeignSeq.asSeq, hn, bind_ok, Int.toNat_natCast]
      rw [ForeignSeq.chars_error he hi (by omega) (by omega)]
      simp only [Atomic.mkFailing]
      rw [if_pos (by omega), if_neg (by omega), if_neg (by omega)]
      rfl
    · rintro rfl
      simp only [Refuses, ForeignSeq.traits, hn, bind_ok]
      rw [if_pos (by omega), he]

/-! ### Examples -/

/-- A sequence whose characters are those of `s` and whose `toString()` returns `u`. -/
def twoFaced (s : JStr) (u : Res JStr) : ForeignSeq where
  length := .ok s.length
  charAt i := match s[i]? with
    | some c => .ok c
    | none => .error .indexOutOfBounds
  toStr := u

theorem twoFaced_spells (s : JStr) (u : Res JStr) : Spells (twoFaced s u) s :=
  ⟨rfl, fun i c h => by simp [twoFaced, h]⟩

def foreignArg (q : ForeignSeq) : Traits := q.traits sampleJdk ⟨js! "example.Chars", 1#32⟩

/-- **C68, witness.**  The same argument prints as two different numbers. -/
theorem C68_witness : printf ⟨fun _ => true⟩ sampleDateEnv (js! "%s %d")
    [foreignArg (twoFaced (js! "12") (.ok (js! "34"))), foreignArg (twoFaced (js! "12") (.ok (js! "34")))] =
      .ok (js! "12 34") := by decide +kernel

example : printf ⟨fun _ => true⟩ sampleDateEnv (js! "[%-4.1S|%c]")
    [foreignArg (twoFaced (js! "xyz") (.error .external)), foreignArg (twoFaced (js! "xyz") (.error .external))] =
      .ok (js! "[X   |x]") := by decide +kernel
example : printf ⟨fun _ => true⟩ sampleDateEnv (js! "%d") [foreignArg (twoFaced (js! "12") (.error .external))] =
    .error .external := by decide +kernel
example : printf ⟨fun _ => true⟩ sampleDateEnv (js! "%s") [foreignArg ⟨.ok (-1), fun _ => .error .external, .ok [], []⟩] =
    .error .illegalArgument := by decide +kernel
example : printf ⟨fun _ => true⟩ sampleDateEnv (js! "%s") [foreignArg ⟨.ok 2, fun _ => .error .external, .ok [], []⟩] =
    .error .external := by decide +kernel

end FastPrintf
