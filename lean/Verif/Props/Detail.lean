/-
Refused calls: the exception and its message, for arguments that are null or out of range.
-/
import Verif.Proofs.Detail
import Verif.Model.ArgsImpl
import Verif.Model.Instance

namespace FastPrintf
open Spec Detail

/-- `charAt` of anything that a history of operations makes: the character, or a message with the index and the length
that the sequence reports.  The empty sequence names the index alone. -/
theorem C90_charAt (e : SliceExpr) (x : Sliced) (hx : e.expected = some x) (q : Seq) (hq : e.eval = .ok q) :
    (∀ (i : Nat) (c : JChar), i < x.reports → x.text[i]? = some c → Detail.charAt q i = .ok c) ∧
    (∀ i : Int, i < 0 ∨ (x.reports : Int) ≤ i → q ≠ .empty → RefusesIndex (Detail.charAt q i) i x.reports) ∧
    (q = .empty → ∀ (i : Int) (a : JStr), DecimalText i a →
      Detail.charAt q i = .error ⟨.indexOutOfBounds, .says a⟩) := by
  have he := e.eval_spec
  rw [hx] at he
  obtain ⟨q', q1, hr⟩ := he
  rw [hq] at q1; cases q1
  refine ⟨fun i c hi hc => ?_, fun i hi hne => ?_, ?_⟩
  · apply lift_forget_of_ok
    rw [forget_charAt]; exact hr.charAt i c hi hc
  · have := Detail.charAt_err (q := q) hne (i := i) (by rw [hr.length]; omega)
    rwa [hr.length] at this
  · rintro rfl i a ha
    rw [decimalText_eq ha]; rfl

/-- `subSequence` likewise: the message has both bounds and the length; the empty sequence throws
`IllegalArgumentException` without a message. -/
theorem C90_subSequence (e : SliceExpr) (x : Sliced) (hx : e.expected = some x) (q : Seq) (hq : e.eval = .ok q) :
    (∀ i j : Int, 0 ≤ i ∧ i ≤ j ∧ j ≤ x.reports → ∃ t, Detail.subSequence q i j = .ok t ∧ q.subSequence i j = .ok t) ∧
    (∀ i j : Int, ¬ (0 ≤ i ∧ i ≤ j ∧ j ≤ x.reports) → q ≠ .empty →
      RefusesBounds (Detail.subSequence q i j) i j x.reports) ∧
    (q = .empty → ∀ i j : Int, ¬ (i = 0 ∧ j = 0) →
      Detail.subSequence q i j = .error ⟨.illegalArgument, .absent⟩) := by
  have he := e.eval_spec
  rw [hx] at he
  obtain ⟨q', q1, hr⟩ := he
  rw [hq] at q1; cases q1
  refine ⟨fun i j hij => ?_, fun i j hij hne => ?_, ?_⟩
  · have : ∃ y, x.slice i j = some y := by
      unfold Sliced.slice
      rw [if_pos hij]
      split_ifs
      · exact ⟨_, rfl⟩
      · exact ⟨_, rfl⟩
      · exact ⟨_, rfl⟩
    obtain ⟨y, hy⟩ := this
    obtain ⟨t, t1, _⟩ := hr.slice hy
    exact ⟨t, lift_forget_of_ok (by rw [forget_sub, t1]), t1⟩
  · have := Detail.sub_err (q := q) hne (i := i) (j := j) (by rw [hr.length]; omega)
    rwa [hr.length] at this
  · rintro rfl i j hij
    show (leafSubSequence .empty i j >>= _) = _
    rw [leafSubSequence, if_neg hij]; rfl

/-- Apart from the messages this is the main model. -/
theorem C90_same (q : Seq) (i j n : Int) (c : JChar) (s : JStr) (e : Instance) (fresh : Nat) :
    forget (Detail.charAt q i) = q.charAt i ∧ forget (Detail.subSequence q i j) = q.subSequence i j ∧
    forget (Detail.repeated c n) = Atomic.mkRepeated c n ∧ Detail.wrap (some s) = .ok (Atomic.wrap s) ∧
    forget (Detail.wrapRange (some s) i j) = Atomic.wrapRange s i j ∧
    Detail.wrapFrom (some s) i = Detail.wrapRange (some s) i s.length ∧
    Detail.forArray (some s) = .ok (Atomic.forArray s) ∧
    forget (Detail.mkLazy (some s) n) = Atomic.mkLazy s n ∧
    forget (Detail.longToInstant n) = FastPrintf.longToInstant n ∧
    forget (Detail.expectedSizeCheck n) = ((ArgsImpl.createWithExpectedSize n).map fun _ => ()) ∧
    forget (Detail.capacityCheck n) = (e.setStringBuilderInitialCapacity n fresh).map fun _ => () := by
  refine ⟨forget_charAt q i, forget_sub q i j, ?_, rfl, forget_wrapRange s i j, rfl, rfl, ?_, ?_, ?_, ?_⟩
  · unfold Detail.repeated Atomic.mkRepeated checkArgument
    by_cases h : n ≥ 1
    · simp only [decide_eq_true h, if_true, if_pos h]
      show forget (if n = 1 then _ else _) = _
      split_ifs <;> rfl
    · simp only [decide_eq_false h, if_neg h]; rfl
  · unfold Detail.mkLazy Atomic.mkLazy checkArgument
    rw [checkNotNull_some]
    by_cases h : n ≥ 0
    · simp only [decide_eq_true h, if_true, if_pos h]
      show forget (if n = 0 then _ else _) = _
      by_cases h0 : n = 0
      · rw [if_pos h0, if_pos h0]; rfl
      · rw [if_neg h0, if_neg h0]
        by_cases h1 : n = 1
        · rw [if_pos h1, if_pos h1, forget_bind]
          have := forget_cached s 1
          unfold getCachedString at this
          rw [this]
          congr 1; funext t
          rw [forget_bind, forget_lift]; rfl
        · rw [if_neg h1, if_neg h1]; rfl
    · simp only [decide_eq_false h, if_neg h]; rfl
  · unfold Detail.longToInstant FastPrintf.longToInstant checkLongArgument
    by_cases h : n ≥ 0
    · simp only [decide_eq_true h, if_true, if_pos h]
      show forget (if n ≤ 0xFFFFFFFF then _ else _) = _
      split_ifs <;> rfl
    · simp only [decide_eq_false h, if_neg h]; rfl
  · unfold Detail.expectedSizeCheck ArgsImpl.createWithExpectedSize checkArgument
    by_cases h : n ≥ 0
    · simp only [decide_eq_true h, if_true, if_pos h]; rfl
    · simp only [decide_eq_false h, if_neg h]; rfl
  · unfold Detail.capacityCheck Instance.setStringBuilderInitialCapacity checkArgument
    by_cases h : n > 0
    · simp only [decide_eq_true h, if_true, if_pos h]
      split_ifs <;> rfl
    · simp only [decide_eq_false h, if_neg h]; rfl

/-- A null argument is named in the message; the first null argument is the one that is named. -/
theorem C90_null {α β : Type} (q : Seq) (o : Option Seq) (i j n : Int) (b : β) (args : Option α)
    (pre post : List (Option Atomic)) (good : List Atomic) (hpre : pre = good.map some)
    (hlen : 2 ≤ (pre ++ none :: post).length) :
    RefusesNull (Detail.wrap none) (js! "s") ∧ RefusesNull (Detail.wrapRange none i j) (js! "s") ∧
    RefusesNull (Detail.forArray none) (js! "ch") ∧ RefusesNull (Detail.forArrayRange none i n) (js! "ch") ∧
    RefusesNull (Detail.mkLazy none n) (js! "action") ∧
    RefusesNull (Detail.concat none o) (js! "left") ∧ RefusesNull (Detail.concat (some q) none) (js! "right") ∧
    RefusesNull (Detail.join none) (js! "atomicSeqs") ∧
    RefusesNull (Detail.join (some (pre ++ none :: post))) (js! "seqElement") ∧
    RefusesNull (Detail.map q none) (js! "mapper") ∧ RefusesNull (Detail.compileCheck none) (js! "source") ∧
    RefusesNull (Detail.formatCheck (none : Option α)) (js! "args") ∧
    RefusesNull (Detail.formatToCheck (none : Option β) args) (js! "builder") ∧
    RefusesNull (Detail.formatToCheck (some b) (none : Option α)) (js! "args") ∧
    RefusesNull (Detail.iterableCheck (none : Option α)) (js! "values") := by
  have plain : ∀ {γ : Type} (name : JStr), RefusesNull (checkNotNull (none : Option γ) name) name := by
    intro γ name
    unfold RefusesNull checkNotNull
    rw [says_null]
  have inner : RefusesNull (joinChecks (pre ++ none :: post)) (js! "seqElement") := by
    subst hpre
    clear hlen
    induction good with
    | nil => exact checkNotNull_none _ _
    | cons a good ih =>
      unfold RefusesNull at ih ⊢
      rw [List.map_cons, List.cons_append, joinChecks, checkNotNull_some]
      show (joinChecks _ >>= _) = _
      rw [ih]; rfl
  refine ⟨checkNotNull_none _ _, checkNotNull_none _ _, checkNotNull_none _ _, checkNotNull_none _ _,
    checkNotNull_none _ _, checkNotNull_none _ _, ?_, checkNotNull_none _ _, ?_,
    checkNotNull_none _ _, plain _, plain _, checkNotNull_none _ _, ?_, plain _⟩
  · show RefusesNull (checkNotNull none (js! "right") >>= fun r => pure (Seq.mkConcat q r)) _
    exact checkNotNull_none _ _
  rotate_left
  · show RefusesNull (checkNotNull none (js! "args") >>= fun a => pure (b, a)) _
    exact checkNotNull_none _ _
  unfold RefusesNull at inner ⊢
  unfold Detail.join
  rw [checkNotNull_some]
  match hm : pre ++ none :: post, hlen with
  | a :: b :: l, _ =>
    show (joinChecks (a :: b :: l) >>= _) = _
    rw [← hm, inner]; rfl

/-- A number that is out of range: the messages. -/
theorem C90_numbers (c : JChar) (s : JStr) (n : Int) :
    (n < 1 → RefusesArgument (Detail.repeated c n) (js! "count < 1")) ∧
    (n < 0 → RefusesArgument (Detail.mkLazy (some s) n) (js! "length < 0")) ∧
    (n ≤ 0 → RefusesArgument (Detail.capacityCheck n) (js! "capacity must be positive")) ∧
    (n < 0 → RefusesArgument (Detail.expectedSizeCheck n) (js! "expectedSize must be non-negative")) ∧
    (n < 0 → ∀ a, DecimalText n a →
      RefusesArgument (Detail.longToInstant n) (js! "The value must not be negative, but was: " ++ a)) ∧
    (0 < n → Detail.capacityCheck n = .ok ()) ∧
    (s.length ≠ 1 → ∀ a, DecimalText s.length a → Detail.mkLazy (some s) 1 =
      .error ⟨.illegalState, .says (js! "Length mismatch: expected 1 but got " ++ a)⟩) ∧
    (∀ k : Nat, k ≠ s.length → ∀ i : Nat, i < k → ∀ a b, DecimalText k a → DecimalText s.length b →
      Detail.charAt (.atom (.lazy s k)) i =
        .error ⟨.illegalState, .says (js! "Length mismatch: expected " ++ a ++ js! " but got " ++ b)⟩) := by
  refine ⟨fun h => checkArgument_false (by simpa using h) _ _, fun h => ?_, fun h => ?_, fun h => ?_, fun h a ha => ?_,
    fun h => ?_, fun h a ha => ?_, fun k hk i hi a b ha hb => ?_⟩
  · exact checkArgument_false (by simpa using h) _ _
  · unfold capacityCheck checkArgument RefusesArgument
    rw [decide_eq_false (by omega), template_none]; rfl
  · unfold expectedSizeCheck checkArgument RefusesArgument
    rw [decide_eq_false (by omega), template_none]; rfl
  · unfold Detail.longToInstant checkLongArgument RefusesArgument
    rw [decide_eq_false (by omega), decimalText_eq ha,
      template_one (p := js! "The value must not be negative, but was: ") (q := []) (by decide)]
    simp [num, Spec.shown]; rfl
  · unfold capacityCheck checkArgument
    rw [decide_eq_true (by omega)]; rfl
  · show (buildEagerly s 1 >>= _) = _
    rw [buildEagerly, if_pos (by omega), decimalText_eq ha]; rfl
  · show (Detail.checkPositionIndex i k >>= _) = _
    rw [Detail.checkPositionIndex, if_neg (by omega)]
    show (buildEagerly s k >>= _) = _
    rw [buildEagerly, if_pos (by omega), decimalText_eq ha, decimalText_eq hb]; rfl

/-- The bounds of the factory methods.  `forArray` adds its numbers as `int`s: nothing out of range is let through by
that, but the message names the sum that wrapped round. -/
theorem C90_bounds (s : JStr) (i j n : Int) :
    (¬ (0 ≤ i ∧ i ≤ j ∧ j ≤ s.length) → RefusesBounds (Detail.wrapRange (some s) i j) i j s.length) ∧
    (¬ (0 ≤ i ∧ i ≤ s.length) → RefusesBounds (Detail.wrapFrom (some s) i) i s.length s.length) ∧
    (intMin ≤ i → i ≤ intMax → intMin ≤ n → n ≤ intMax → (s.length : Int) ≤ intMax →
      (¬ (0 ≤ i ∧ 0 ≤ n ∧ i + n ≤ s.length) →
        RefusesBounds (Detail.forArrayRange (some s) i n) i (wrap32 (i + n)) s.length) ∧
      forget (Detail.forArrayRange (some s) i n) = Atomic.forArrayRange s i n) := by
  have w : ∀ i j : Int, ¬ (0 ≤ i ∧ i ≤ j ∧ j ≤ s.length) →
      RefusesBounds (Detail.wrapRange (some s) i j) i j s.length := fun i j h => bounds_err h _
  refine ⟨w i j, fun h => w i s.length (by omega), fun h1 h2 h3 h4 h5 => ?_⟩
  have e1 : intMin = -2147483648 := rfl
  have e2 : intMax = 2147483647 := rfl
  have hw : (0 ≤ i ∧ i ≤ wrap32 (i + n) ∧ wrap32 (i + n) ≤ s.length) ↔ (0 ≤ i ∧ i ≤ i + n ∧ i + n ≤ s.length) := by
    have e : wrap32 (i + n) = if (i + n) % 4294967296 < 2147483648 then (i + n) % 4294967296
        else (i + n) % 4294967296 - 4294967296 := rfl
    rw [e]
    split_ifs <;> omega
  constructor
  · intro h
    exact bounds_err (by rw [hw]; omega) _
  · unfold Detail.forArrayRange Atomic.forArrayRange
    rw [checkNotNull_some]
    show forget (Detail.checkPositionIndexes i (wrap32 (i + n)) s.length >>= _) = _
    rw [forget_bind, forget_bounds]
    by_cases h : 0 ≤ i ∧ i ≤ i + n ∧ i + n ≤ s.length
    · rw [checkPositionIndexes_ok (hw.2 h), checkPositionIndexes_ok h]; rfl
    · rw [checkPositionIndexes_err (fun h' => h (hw.1 h')), checkPositionIndexes_err h]; rfl

/-- Where null gets through, or is met by the JVM only: the only element of a joined list, the argument of `append` and
`prepend`, and the string of `wrap(s, start)`. -/
theorem C90_unchecked (q : Seq) (hq : q ≠ .empty) (i : Int) :
    Detail.join (some [none]) = .ok none ∧ Detail.append .empty none = .ok none ∧ Detail.prepend .empty none = .ok none ∧
    Detail.append q none = .error ⟨.nullPointer, .unsaid⟩ ∧ Detail.prepend q none = .error ⟨.nullPointer, .unsaid⟩ ∧
    Detail.wrapFrom none i = .error ⟨.nullPointer, .unsaid⟩ := by
  refine ⟨rfl, rfl, rfl, ?_, ?_, rfl⟩
  · cases q with
    | atom a => cases a <;> first | exact absurd rfl hq | rfl
    | concat l r n k => rfl
    | array es n => rfl
  · cases q with
    | atom a => cases a <;> first | exact absurd rfl hq | rfl
    | concat l r n k => rfl
    | array es n => rfl

/-- With sequences in place of null they do what the main model says. -/
theorem C90_together (q r : Seq) (es : List Atomic) (f : Seq → Out (Option Seq)) :
    Detail.map q (some f) = f q ∧
    Detail.concat (some q) (some r) = .ok (Seq.mkConcat q r) ∧
    Detail.append q (some r) = .ok (some (q.append r)) ∧ Detail.prepend q (some r) = .ok (some (q.prepend r)) ∧
    Detail.join (some (es.map some)) = .ok (some (Seq.join es)) := by
  have hj : ∀ es : List Atomic, joinChecks (es.map some) = .ok es := by
    intro es
    induction es with
    | nil => rfl
    | cons a es ih =>
      rw [List.map_cons, joinChecks, checkNotNull_some]
      show (joinChecks _ >>= _) = _
      rw [ih]; rfl
  refine ⟨rfl, rfl, ?_, ?_, ?_⟩
  · by_cases he : r.isEmpty = true
    · cases q with
      | atom a => cases a <;> first | rfl | simp only [Detail.append, Seq.append, if_pos he]
      | concat l r' n k => simp only [Detail.append, Seq.append, if_pos he]
      | array es n => simp only [Detail.append, Seq.append, if_pos he]
    · cases q with
      | atom a => cases a <;> first | rfl | (simp only [Detail.append, Seq.append, if_neg he]; rfl)
      | concat l r' n k => simp only [Detail.append, Seq.append, if_neg he]; rfl
      | array es n => simp only [Detail.append, Seq.append, if_neg he]; rfl
  · by_cases he : r.isEmpty = true
    · cases q with
      | atom a => cases a <;> first | rfl | simp only [Detail.prepend, Seq.prepend, if_pos he]
      | concat l r' n k => simp only [Detail.prepend, Seq.prepend, if_pos he]
      | array es n => simp only [Detail.prepend, Seq.prepend, if_pos he]
    · cases q with
      | atom a => cases a <;> first | rfl | (simp only [Detail.prepend, Seq.prepend, if_neg he]; rfl)
      | concat l r' n k => simp only [Detail.prepend, Seq.prepend, if_neg he]; rfl
      | array es n => simp only [Detail.prepend, Seq.prepend, if_neg he]; rfl
  · match es with
    | [] => rfl
    | [a] => rfl
    | a :: b :: es =>
      show (joinChecks ((a :: b :: es).map some) >>= _) = _
      rw [hj]; rfl

/-! ### Instances -/

example : Detail.charAt (.atom (.wrap (js! "hello"))) 7 =
    .error ⟨.indexOutOfBounds, .says (js! "index: 7, size: 5")⟩ := by decide +kernel
example : Detail.charAt .empty 3 = .error ⟨.indexOutOfBounds, .says (js! "3")⟩ := by decide +kernel
example : (Detail.subSequence (.array [.wrap (js! "ab"), .ch 99] 1) 0 2).map (fun _ => ()) =
    .error ⟨.indexOutOfBounds, .says (js! "start: 0, end: 2, size: 1")⟩ := by decide +kernel
example : Detail.forArrayRange (some (js! "abcd")) 1 2147483647 =
    .error ⟨.indexOutOfBounds, .says (js! "start: 1, end: -2147483648, size: 4")⟩ := by decide +kernel
example : Detail.mkLazy (some (js! "ab")) 1 =
    .error ⟨.illegalState, .says (js! "Length mismatch: expected 1 but got 2")⟩ := by decide +kernel
example : (Detail.join (some [some (.ch 97), none, none])).map (fun _ => ()) =
    .error ⟨.nullPointer, .says (js! "Argument 'seqElement' cannot be null")⟩ := by decide +kernel

end FastPrintf
