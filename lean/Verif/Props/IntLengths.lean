/-
C77: lengths are `int`s.
-/
import Verif.Spec.IntLengths
import Verif.Proofs.IntFailures
import Verif.Proofs.IntOverflow
import Verif.Props.BigDecimal
import Verif.Props.Readings

namespace FastPrintf

open Spec FastPrintf.Seq

/-- **C77.**  Whatever the code prints when lengths are counted without bound, it prints too when they are counted
in `int`s that wrap around, provided that the whole line is no longer than a Java string can be. -/
theorem C77_agree (dates : DateSyntax) (env : DateEnv) (jdk : JdkEnv) (format : JStr) (es : List Entry)
    (h : ∀ e ∈ es, Modest e) (line : JStr) (hp : printf dates env format (es.map (Entry.toTraits jdk)) = .ok line)
    (hl : line.length ≤ longestString) : Narrow.printf dates env format (es.map (Narrow.toTraits jdk)) = .ok line :=
  Narrow.printf_narrow jdk h hp hl

/-- **C77.**  A call that fails when lengths are counted without bound fails with the same exception when they are
`int`s, and leaves the same in its builder, provided that this is no longer than a Java string can be. -/
theorem C77_left (dates : DateSyntax) (env : DateEnv) (jdk : JdkEnv) (format : JStr) (apps : List Appender)
    (hc : Compiler.compile dates format = .ok apps) (es : List Entry) (h : ∀ e ∈ es, Modest e) (t : JStr)
    (e : Err) (hp : runSB env apps (es.map (Entry.toTraits jdk)) [] = ⟨t, .error e⟩) (hl : t.length ≤ longestString) :
    Narrow.runSB env apps (es.map (Narrow.toTraits jdk)) [] = ⟨t, .error e⟩ := by
  obtain ⟨ps, hr, rfl⟩ := (compile_iff _ _ _).1 hc
  refine Narrow.runSB_refused ?_ (Narrow.modest_firm_all jdk h) hp hl
  intro a ha
  obtain ⟨p, hp, rfl⟩ := List.mem_map.1 ha
  exact Piece.compiled_stored (hr.ok p hp)

/-- **C77.**  So for every call that writes no more than a Java string can hold before it ends, lengths that are `int`s
make no difference. -/
theorem C77_same (dates : DateSyntax) (env : DateEnv) (jdk : JdkEnv) (format : JStr) (es : List Entry)
    (h : ∀ e ∈ es, Modest e)
    (hl : ∀ apps, Compiler.compile dates format = .ok apps →
      (runSB env apps (es.map (Entry.toTraits jdk)) []).target.length ≤ longestString) :
    Narrow.printf dates env format (es.map (Narrow.toTraits jdk)) =
      printf dates env format (es.map (Entry.toTraits jdk)) := by
  cases hc : Compiler.compile dates format with
  | error e =>
    unfold Narrow.printf printf
    rw [hc]; rfl
  | ok apps =>
    have hl := hl apps hc
    have he : printf dates env format (es.map (Entry.toTraits jdk)) =
        formatWith env apps (es.map (Entry.toTraits jdk)) := by
      unfold printf
      rw [hc]; rfl
    rw [formatWith_eq] at he
    rcases hrun : runSB env apps (es.map (Entry.toTraits jdk)) [] with ⟨t, r⟩
    rw [hrun] at he hl
    cases r with
    | error e =>
      rw [he]
      unfold Narrow.printf
      rw [hc, bind_ok, C77_left dates env jdk format apps hc es h t e hrun hl]
      rfl
    | ok rest => rw [he]; exact Narrow.printf_narrow jdk h he hl

theorem unadorned {d : Directive} (hf : d.flags = []) (hw : d.width = .absent) : Narrow.Unadorned d.context := by
  have e1 : d.context.flags = flagSet [] := by rw [← hf]; rfl
  have e2 : d.context.width = Num.absent.value := by rw [← hw]; rfl
  refine ⟨?_, ?_, ?_, ?_, ?_⟩
  · unfold SeqFormatter.width FormatContext.isWidthSet
    rw [e2]; rfl
  all_goals
    unfold FormatContext.hasFlag
    rw [e1]; rfl

theorem zerosText_eq {u : Int} {ds : JStr} (h : Shortest 10 u.natAbs ds) (k p : Nat) :
    Narrow.zerosText u k p = integerText (u < 0) ds k p := by
  rw [h.eq (by omega) (by omega)]
  unfold Narrow.zerosText integerText
  simp

/-- `%.pf` of an integer with the digits `ds` and `k` zeros, no flags and no width. -/
structure LongInteger (dates : DateSyntax) (d : Directive) (u : Int) (ds : JStr) (k : Nat) : Prop where
  ok : d.Ok dates
  conversion : d.conv = ch! 'f'
  flags : d.flags = []
  width : d.width = .absent
  prec : d.prec ≠ .star
  digits : Shortest 10 u.natAbs ds
  zeros : 1 ≤ k
  point : 1 ≤ d.prec.precision.getD 6

variable {dates : DateSyntax} {env : DateEnv} {jdk : JdkEnv} {d : Directive} {u : Int} {ds : JStr} {k : Nat} {id : Identity}

theorem LongInteger.printf_eq (h : LongInteger dates d u ds k) (env : DateEnv) (jdk : JdkEnv) (id : Identity) :
    Narrow.printf dates env d.text [Narrow.toTraits jdk (.ref (.bigDecimal u (-(k : Int)) id))] =
      (Narrow.f d.context (Narrow.ofBigDecimal u (-(k : Int))) >>= fun r => r.appendToSB []) := by
  rw [Narrow.printf_one h.ok ⟨by rw [h.width]; simp, h.prec⟩, h.conversion]
  rfl

theorem LongInteger.laid (h : LongInteger dates d u ds k) (hl : ds.length + k ≤ longestString) :
    ∃ m, Narrow.f d.context (Narrow.ofBigDecimal u (-(k : Int))) = Narrow.spaceJustify d.context m ∧
      Narrow.Wrapped m ∧ m.text = integerText (u < 0) ds k (d.prec.precision.getD 6) := by
  have hp : d.Plain := ⟨by rw [h.width]; simp, h.prec⟩
  have hl' : ds.length + k ≤ 2147483647 := hl
  obtain ⟨m, m1, m2, m3⟩ := Narrow.f_zeros (unadorned h.flags h.width) (u := u) (n := ds.length) (k := k)
    (by rw [h.digits.eq (by omega) (by omega)]) h.zeros hl' (precision6_eq hp) h.point
    (getD_precision_le h.ok)
  exact ⟨m, m1, m2, by rw [m3, zerosText_eq h.digits]⟩

/-- As long as the text is no longer than a string can be, it is printed as it should be. -/
theorem C77_f_fits (h : LongInteger dates d u ds k)
    (hl : (integerText (u < 0) ds k (d.prec.precision.getD 6)).length ≤ longestString) :
    Narrow.printf dates env d.text [Narrow.toTraits jdk (.ref (.bigDecimal u (-(k : Int)) id))] =
      .ok (integerText (u < 0) ds k (d.prec.precision.getD 6)) := by
  have hl' : ds.length + k ≤ longestString := by
    unfold integerText at hl
    simp only [List.length_append, List.length_replicate] at hl
    omega
  obtain ⟨m, m1, m2, m3⟩ := h.laid hl'
  rw [h.printf_eq, m1, Narrow.justify_none (unadorned h.flags h.width) m2 (by rw [m3]; exact hl), bind_ok,
    m2.solid.written, m3]
  rfl

/-- One unit more, and the call fails with an `IllegalArgumentException` whatever the target: the length wraps around to
`Integer.MIN_VALUE`, which is less than the width 0, and a negative number of blanks is asked for. -/
theorem C77_f_refused (h : LongInteger dates d u ds k)
    (hl : (integerText (u < 0) ds k (d.prec.precision.getD 6)).length = longestString + 1) :
    Narrow.printf dates env d.text [Narrow.toTraits jdk (.ref (.bigDecimal u (-(k : Int)) id))] =
      .error .illegalArgument := by
  have hl' : ds.length + k ≤ longestString := by
    have := h.point
    unfold integerText at hl
    simp only [List.length_append, List.length_replicate] at hl
    have e : (js! ".").length = 1 := rfl
    omega
  obtain ⟨m, m1, m2, m3⟩ := h.laid hl'
  rw [h.printf_eq, m1, Narrow.justify_refused (unadorned h.flags h.width) m2 (by rw [m3]; exact hl)]
  rfl

/-- More units than that, and blanks are written in front although no width was asked for: as many as bring the
length to 2³². -/
theorem C77_f_blanks (h : LongInteger dates d u ds k) (hk : ds.length + k ≤ longestString)
    (hl : longestString + 1 < (integerText (u < 0) ds k (d.prec.precision.getD 6)).length) :
    ∃ blanks, Narrow.printf dates env d.text [Narrow.toTraits jdk (.ref (.bigDecimal u (-(k : Int)) id))] =
        .ok (List.replicate blanks (ch! ' ') ++ integerText (u < 0) ds k (d.prec.precision.getD 6)) ∧
      blanks + (integerText (u < 0) ds k (d.prec.precision.getD 6)).length = 4294967296 := by
  obtain ⟨m, m1, m2, m3⟩ := h.laid hk
  have hlt : m.text.length < 4294967296 := by
    have hp := getD_precision_le h.ok
    have hk' : ds.length + k ≤ 2147483647 := hk
    rw [m3]
    unfold integerText
    simp only [List.length_append, List.length_replicate]
    have e : (js! ".").length = 1 := rfl
    split_ifs
    · have e : (js! "-").length = 1 := rfl
      omega
    · simp only [List.length_nil]; omega
  obtain ⟨r, r1, r2, r3⟩ := Narrow.justify_blanks (unadorned h.flags h.width) m2 (by rw [m3]; exact hl) hlt
  refine ⟨4294967296 - m.text.length, ?_, by rw [← m3]; omega⟩
  rw [h.printf_eq, m1, r1, bind_ok, r2.solid.written, r3, m3]
  rfl

/-- When the digits before the point alone are one too many, the call fails with an `IndexOutOfBoundsException`. -/
theorem C77_f_bounds (h : LongInteger dates d u ds k) (hl : ds.length + k = longestString + 1) :
    Narrow.printf dates env d.text [Narrow.toTraits jdk (.ref (.bigDecimal u (-(k : Int)) id))] =
      .error .indexOutOfBounds := by
  have hp : d.Plain := ⟨by rw [h.width]; simp, h.prec⟩
  rw [h.printf_eq, Narrow.f_out_of_bounds (n := ds.length) (by rw [h.digits.eq (by omega) (by omega)]) h.zeros hl
    (precision6_eq hp)]
  rfl

/-- `%f` of ten to the power `k`. -/
theorem tenPower {k : Nat} (h : 1 ≤ k) : LongInteger sampleDates (bare (ch! 'f')) 1 (js! "1") k :=
  ⟨bare_ok (by decide) (by decide), rfl, rfl, rfl, by simp [bare], by unfold Shortest IsNumeral NoExtraZero; decide, h,
    by decide⟩

theorem tenPower_length (k : Nat) : (integerText ((1 : Int) < 0) (js! "1") k 6).length = k + 8 := by
  unfold integerText
  simp

/-- The edge: `%f` of `1E2147483639` is the longest that prints, `1E2147483640` is refused, the next six come with
blanks in front, and `1E2147483647` fails with another exception. -/
theorem C77_ten_power (k : Nat) (hk : 1 ≤ k) :
    let called := Narrow.printf sampleDates sampleDateEnv (js! "%f")
      [Narrow.toTraits sampleJdk (.ref (.bigDecimal 1 (-(k : Int)) someId))]
    (k ≤ 2147483639 → called = .ok (integerText false (js! "1") k 6)) ∧
    (k = 2147483640 → called = .error .illegalArgument) ∧
    (2147483641 ≤ k → k ≤ 2147483646 →
      called = .ok (List.replicate (4294967288 - k) (ch! ' ') ++ integerText false (js! "1") k 6)) ∧
    (k = 2147483647 → called = .error .indexOutOfBounds) := by
  have h := tenPower hk
  have hl := tenPower_length k
  have e : longestString = 2147483647 := rfl
  have e1 : (js! "1").length = 1 := rfl
  refine ⟨fun h1 => ?_, fun h1 => ?_, fun h1 h2 => ?_, fun h1 => ?_⟩
  · exact C77_f_fits h (show (integerText ((1 : Int) < 0) (js! "1") k 6).length ≤ _ by omega)
  · exact C77_f_refused h (show (integerText ((1 : Int) < 0) (js! "1") k 6).length = _ by omega)
  · obtain ⟨b, b1, b2⟩ := C77_f_blanks (env := sampleDateEnv) (jdk := sampleJdk) (id := someId) h (by omega)
      (show _ < (integerText ((1 : Int) < 0) (js! "1") k 6).length by omega)
    have b2' : b + (integerText ((1 : Int) < 0) (js! "1") k 6).length = 4294967296 := b2
    have e2 : b = 4294967288 - k := by omega
    rw [← e2]
    exact b1
  · exact C77_f_bounds h (by omega)

/-! Ropes of the caller -/

/-- The length a rope reports is the length of its text, wrapped around to an `int`. -/
theorem C77_stored_length (s : Seq) (h : Narrow.Wrapped s) : s.length = wrap32 s.text.length := h.length

/-- A `charAt` aside, a rope whose length has wrapped around still writes its whole text. -/
theorem C77_written (s : Seq) (h : Narrow.Wrapped s) (sb : JStr) : s.appendToSB sb = .ok (sb ++ s.text) :=
  h.solid.written sb

theorem totalLength_wrap (l : List Atomic) (h : ∀ a ∈ l, a.WF) (k : Int) :
    Narrow.totalLength l (wrap32 k) = wrap32 (k + (l.flatMap Atomic.text).length) := by
  induction l generalizing k with
  | nil => simp [Narrow.totalLength]
  | cons a l ih =>
    unfold Narrow.totalLength
    rw [Narrow.wrap_add_left, ih (fun b hb => h b (.tail _ hb)), Atomic.length_text (h a (.head _))]
    rw [List.flatMap_cons, List.length_append]
    push_cast
    congr 1
    ring

/-- `Seq.join` of pieces shorter than 2³¹ gives the texts one after the other, and the length is their number of units
mod 2³², like that of a rope built by `append`. -/
theorem C77_join (l : List Atomic) (h : ∀ a ∈ l, a.WF ∧ a.text.length ≤ longestString) :
    Narrow.Wrapped (Narrow.join l) ∧ (Narrow.join l).text = l.flatMap Atomic.text ∧
      (Narrow.join l).length = wrap32 (l.flatMap Atomic.text).length := by
  have key : Narrow.Wrapped (Narrow.join l) ∧ (Narrow.join l).text = l.flatMap Atomic.text := by
    match l with
    | [] => exact ⟨⟨trivial, by decide⟩, rfl⟩
    | [a] => exact ⟨h a (.head _), by simp [Narrow.join, Seq.text]⟩
    | a :: b :: l =>
      refine ⟨⟨by simp, fun x hx => (h x hx).1, ?_⟩, rfl⟩
      have := totalLength_wrap (a :: b :: l) (fun x hx => (h x hx).1) 0
      rw [Int.zero_add] at this
      exact this
  exact ⟨key.1, key.2, by rw [key.1.length, key.2]⟩

theorem indexOfLoop_wrap (es : List Atomic) (h : ∀ a ∈ es, a.WF) (c : JChar) (k : Int) :
    Narrow.indexOfLoop c es (wrap32 k) = .ok (
      if firstIndex (es.flatMap Atomic.text) c = -1 then -1
      else wrap32 (firstIndex (es.flatMap Atomic.text) c + k)) := by
  induction es generalizing k with
  | nil => simp [Narrow.indexOfLoop, firstIndex]
  | cons a es ih =>
    have ha := h a (by simp)
    unfold Narrow.indexOfLoop
    rw [Atomic.indexOf_ok ha, bind_ok, List.flatMap_cons, Atomic.firstIndex_append, Narrow.wrap_add_left,
      ih (fun b hb => h b (List.mem_cons_of_mem _ hb)), Atomic.length_text ha, Narrow.wrap_add_right]
    have h1 := Atomic.firstIndex_ge a.text c
    have h2 := Atomic.firstIndex_ge (es.flatMap Atomic.text) c
    generalize firstIndex a.text c = x at *
    generalize firstIndex (es.flatMap Atomic.text) c = y at *
    by_cases hx : x = -1
    · by_cases hy : y = -1
      · simp [hx, hy]
      · simp only [hx, hy, ne_eq, not_true_eq_false, not_false_eq_true, if_true, if_false]
        rw [if_neg (by omega)]; congr 2; omega
    · simp only [hx, ne_eq, not_false_eq_true, if_true, if_false]; rfl

/-- `indexOf` gives the index of the first occurrence mod 2³², as an `int`, and -1 if there is none. -/
theorem C77_indexOf (s : Seq) (h : Narrow.Wrapped s) (c : JChar) :
    Narrow.indexOf s c = .ok (if firstIndex s.text c = -1 then -1 else wrap32 (firstIndex s.text c)) := by
  have hw : wrap32 (0 : Int) = 0 := by decide
  cases s with
  | atom a =>
    rw [Narrow.indexOf, Atomic.indexOf_ok h.1]
    have h1 := Atomic.firstIndex_ge a.text c
    have h2 : firstIndex a.text c < 2147483648 := by
      have := Atomic.firstIndex_lt a.text c
      have := h.2
      omega
    show _ = Except.ok (if firstIndex a.text c = -1 then -1 else wrap32 (firstIndex a.text c))
    rw [wrap32_eq ⟨by omega, by omega⟩]
    congr 1
    split_ifs <;> omega
  | concat l r n k =>
    rw [Narrow.indexOf, h.solid.leaves, bind_ok, ← hw, indexOfLoop_wrap _ h.solid.flat, flat_text, Int.add_zero]
    simp
  | array es n =>
    rw [Narrow.indexOf, h.solid.leaves, bind_ok, ← hw, indexOfLoop_wrap _ h.solid.flat, flat_text, Int.add_zero]
    simp

/-- `append` and `prepend` put the texts together and keep this so, except that a second rope with a multiple of 2³²
units counts as empty and is dropped. -/
theorem C77_append (l r : Seq) (hl : Narrow.Wrapped l) (hr : Narrow.Wrapped r) :
    Narrow.Wrapped (Narrow.append l r) ∧ Narrow.Wrapped (Narrow.prepend l r) ∧
    (¬ 4294967296 ∣ r.text.length → (Narrow.append l r).text = l.text ++ r.text ∧
      (Narrow.prepend l r).text = r.text ++ l.text) ∧
    (4294967296 ∣ r.text.length → l ≠ Seq.empty → Narrow.append l r = l ∧ Narrow.prepend l r = l) := by
  have hz : wrap32 (r.text.length : Int) = 0 ↔ 4294967296 ∣ r.text.length := by
    unfold wrap32
    rw [← Int.dvd_iff_bmod_eq_zero]
    omega
  refine ⟨Narrow.append_wrapped hl hr, Narrow.prepend_wrapped hl hr, fun hd => ?_, fun hd hne => ?_⟩
  · rw [Narrow.append_text hr, Narrow.prepend_text hr, if_neg (fun h => hd (hz.1 h.1)), if_neg (fun h => hd (hz.1 h.1))]
    exact ⟨rfl, rfl⟩
  · have he := (Narrow.wrapped_empty_iff hr).2 (hz.2 hd)
    have hne' : l ≠ .atom .empty := hne
    unfold Narrow.append Narrow.prepend
    rw [if_pos he, if_pos he]
    constructor <;> (split <;> [exact absurd rfl hne'; rfl])

/-- A rope appended to itself `n` times. -/
def doubled (s : Seq) : Nat → Seq
  | 0 => s
  | n + 1 => Narrow.append (doubled s n) (doubled s n)

theorem doubled_spec (c : JChar) (n : Nat) (hn : n ≤ 32) :
    Narrow.Wrapped (doubled (Seq.ch c) n) ∧ Narrow.Tallied (doubled (Seq.ch c) n) ∧
    (doubled (Seq.ch c) n).text = List.replicate (2 ^ n) c ∧ (doubled (Seq.ch c) n).flat.length = 2 ^ n ∧
    (1 ≤ n → doubled (Seq.ch c) n = Narrow.mkConcat (doubled (Seq.ch c) (n - 1)) (doubled (Seq.ch c) (n - 1))) := by
  induction n with
  | zero => exact ⟨Narrow.wrapped_ch c, trivial, by rw [pow_zero]; exact ch_text c, rfl, by simp⟩
  | succ n ih =>
    obtain ⟨h1, h2, h3, h4, -⟩ := ih (by omega)
    have hle : 2 ^ n ≤ 2 ^ 31 := Nat.pow_le_pow_right (by omega) (by omega)
    have hpos : 0 < 2 ^ n := by positivity
    have hlen : (doubled (Seq.ch c) n).text.length = 2 ^ n := by rw [h3, List.length_replicate]
    have hnd : ¬ wrap32 ((doubled (Seq.ch c) n).text.length : Int) = 0 := by
      rw [hlen]
      unfold wrap32
      rw [← Int.dvd_iff_bmod_eq_zero]
      generalize 2 ^ n = x at hle hpos
      omega
    have e : doubled (Seq.ch c) (n + 1) = Narrow.mkConcat (doubled (Seq.ch c) n) (doubled (Seq.ch c) n) := by
      show Narrow.append (doubled (Seq.ch c) n) (doubled (Seq.ch c) n) = _
      have hne : (doubled (Seq.ch c) n) ≠ .atom .empty := by
        intro he
        rw [he] at hlen
        simp [Seq.text, Atomic.text] at hlen
        omega
      have hie : ¬ (doubled (Seq.ch c) n).isEmpty = true := fun h => hnd ((Narrow.wrapped_empty_iff h1).1 h)
      generalize doubled (Seq.ch c) n = s at *
      unfold Narrow.append
      rw [if_neg hie]
      split
      · exact absurd rfl hne
      · rfl
    refine ⟨?_, ?_, ?_, ?_, fun _ => e⟩
    · rw [e]; exact Narrow.mkConcat_wrapped h1 h1
    · rw [e]; exact Narrow.mkConcat_tallied h2 h2
    · rw [e, Narrow.mkConcat_text, h3, ← List.replicate_add, pow_succ]; congr 1; omega
    · rw [e, Narrow.mkConcat_flat, List.length_append, h4, pow_succ]; omega

-- unfolding it makes two to the power `n` leaves
attribute [irreducible] doubled

/-- A character appended to itself 31 times is a rope of 31 objects whose `upperCase` fails with an
`IllegalArgumentException`: the count of its leaves has wrapped around to `Integer.MIN_VALUE`.  It reports a negative
length.  Appended to itself once more it reports the length 0, and appending it to anything has no effect. -/
theorem C77_doubled (c : JChar) :
    Narrow.upperCase (doubled (Seq.ch c) 31) = .error .illegalArgument ∧
    (doubled (Seq.ch c) 31).length = -2147483648 ∧
    (doubled (Seq.ch c) 32).length = 0 ∧ (doubled (Seq.ch c) 32).text = List.replicate (2 ^ 32) c ∧
    ∀ l : Seq, Narrow.Wrapped l → l ≠ Seq.empty → Narrow.append l (doubled (Seq.ch c) 32) = l := by
  obtain ⟨-, a2, -, a4, -⟩ := doubled_spec c 30 (by omega)
  obtain ⟨b1, -, b3, -, b5⟩ := doubled_spec c 31 (by omega)
  obtain ⟨c1, -, c3, -, -⟩ := doubled_spec c 32 (by omega)
  have e30 : ((2 ^ 30 : Nat) : Int) + ((2 ^ 30 : Nat) : Int) = 2147483648 := by norm_num
  have e31 : ((2 ^ 31 : Nat) : Int) = 2147483648 := by norm_num
  have e32 : ((2 ^ 32 : Nat) : Int) = 4294967296 := by norm_num
  have w31 : wrap32 2147483648 = -2147483648 := by decide
  have w32 : wrap32 4294967296 = 0 := by decide
  refine ⟨?_, ?_, ?_, c3, fun l hl hne => ?_⟩
  · rw [b5 (by omega)]
    refine Narrow.upper_refused a2 a2 ?_
    show wrap32 (((doubled (Seq.ch c) 30).flat.length : Int) + (doubled (Seq.ch c) 30).flat.length) < 0
    rw [a4, e30]; exact w31 ▸ by omega
  · rw [b1.length, b3, List.length_replicate, e31, w31]
  · rw [c1.length, c3, List.length_replicate, e32, w32]
  · refine ((C77_append l _ hl c1).2.2.2 ?_ hne).1
    rw [c3, List.length_replicate]; norm_num

/-! The statements are about something -/

-- everything but the caller's own `FormatTraits` is modest
example : Modest (.prim (.double 0x7fefffffffffffff#64)) := trivial
example : Modest (.ref (.string (js! "text") someId)) := trivial
example : Modest (.ref (.bigDecimal 12345 (-2147483648) someId)) := ⟨by decide, by omega, by omega⟩
example : Modest (.ref (.seq ((Seq.wrap (js! "ab")).append (Seq.ch 99)) someId)) :=
  ⟨append_wf (wrap_wf _) (ch_wf _), append_counted trivial trivial, by decide⟩
-- a big number that cannot be rounded
example : ∃ why, printf sampleDates sampleDateEnv (js! "%.0e") ([Entry.ref (.bigDecimal 12345 (-2147483648)
    someId)].map (Entry.toTraits sampleJdk)) = .error why := ⟨_, rfl⟩
example : Narrow.printf sampleDates sampleDateEnv (js! "%.0e") ([Entry.ref (.bigDecimal 12345 (-2147483648)
    someId)].map (Narrow.toTraits sampleJdk)) =
  printf sampleDates sampleDateEnv (js! "%.0e") ([Entry.ref (.bigDecimal 12345 (-2147483648)
    someId)].map (Entry.toTraits sampleJdk)) := rfl
-- a call that fails in its second directive
example : Narrow.printf sampleDates sampleDateEnv (js! "%d %a") ([Entry.prim (.int 42#32),
    .ref (.bigDecimal 1 9 someId)].map (Narrow.toTraits sampleJdk)) =
  printf sampleDates sampleDateEnv (js! "%d %a") ([Entry.prim (.int 42#32),
    .ref (.bigDecimal 1 9 someId)].map (Entry.toTraits sampleJdk)) := rfl
example : ∃ why, printf sampleDates sampleDateEnv (js! "%d %a") ([Entry.prim (.int 42#32),
    .ref (.bigDecimal 1 9 someId)].map (Entry.toTraits sampleJdk)) = .error (.printf why) := ⟨_, rfl⟩
-- the code with `int` lengths at work
example : Narrow.printf sampleDates sampleDateEnv (js! "%8.2f|%G|%-5s|%05d|%#x")
    ([Entry.ref (.bigDecimal (-12345) 3 someId), .ref (.bigDecimal 1 9 someId), .ref (.string (js! "ab") someId),
      .prim (.int 42#32), .prim (.int 255#32)].map (Narrow.toTraits sampleJdk)) =
    .ok (js! "  -12.35|1E-09|ab   |00042|0xff") := rfl
-- `1E2147483640` and its neighbours exist: their scales are `int`s
example : Modest (.ref (.bigDecimal 1 (-2147483640) someId)) := ⟨by decide, by omega, by omega⟩

end FastPrintf
