/-
Property C09: `*` as a width or a precision means the number given as argument.

The theorems are about one directive; C05 lifts them to whole formats, and a directive with two stars
is covered by applying the width theorem first and the precision theorem to what it leaves.
-/
import Verif.Props.Engine

namespace FastPrintf
open Spec DefaultAppender

theorem Directive.Ok.newWidth {dates : DateSyntax} {d : Directive} (h : d.Ok dates) {w : Num}
    (hw : WidthOk w) (hn : w ≠ .absent) : { d with width := w }.Ok dates :=
  ⟨h.flagsOk, h.noRepeat, hw, h.prec, h.conv, h.date, fun _ h2 => hn h2.2.1⟩

theorem Directive.Ok.newFlags {dates : DateSyntax} {d : Directive} (h : d.Ok dates) {w : Num}
    (hw : WidthOk w) : { d with flags := withMinus d.flags, width := w }.Ok dates := by
  have hne : withMinus d.flags ≠ [] := by
    unfold withMinus; split_ifs with hm
    · exact List.ne_nil_of_mem hm
    · simp
  refine ⟨?_, ?_, hw, h.prec, h.conv, h.date, fun _ h2 => hne h2.1⟩
  · intro c hc
    simp only [withMinus] at hc
    split_ifs at hc
    · exact h.flagsOk c hc
    · rcases List.mem_cons.1 hc with rfl | hc
      · decide
      · exact h.flagsOk c hc
  · simp only [withMinus]
    split_ifs with hm
    · exact h.noRepeat
    · exact List.nodup_cons.2 ⟨hm, h.noRepeat⟩

theorem flagSet_withMinus (fl : JStr) :
    flagSet (withMinus fl) = { flagSet fl with leftJustify := true } := by
  unfold withMinus
  split_ifs with hm
  · have : (flagSet fl).leftJustify = true := by simpa [flagSet] using hm
    rw [← this]
  · simp [flagSet]

theorem printf_dir_star {dates : DateSyntax} {d : Directive} (h : d.Ok dates) (hs : d.width = .star)
    (env : DateEnv) {v : Traits} {w : Int} (hv : v.asInt = .ok w) (args : List Traits) :
    printf dates env d.text (v :: args) =
      ((if w ≥ 0 then d.context.setWidth w
        else (d.context.addFlag .leftJustify).setWidth (wrap32 (-w))) >>= fun c =>
          afterWidth env (convOf d.conv) c args) >>= fun r => r.1.appendToSB [] := by
  rw [printf_dir h, append_star (by simp [Directive.context, hs, Num.value]), hv]
  rfl

theorem context_noStar {d : Directive} (h : d.width ≠ .star) : d.context.width ≠ PRECEDING := by
  have e2 : PRECEDING = -2147483648 := rfl
  cases hx : d.width with
  | absent => simp only [Directive.context, hx]; decide
  | star => exact absurd hx h
  | digits ds => simp only [Directive.context, hx, Num.value]; omega

theorem wrap32_small {x : Int} (h : -2147483648 ≤ x ∧ x ≤ 2147483647) : wrap32 x = x := by
  unfold wrap32
  rw [Int.bmod_eq_of_le] <;> omega

theorem digits_value {ds : JStr} {w : Int} (h : (decimalValue ds : Int) = w) :
    (Num.digits ds).value = w := h

/-- **C09 (width, non-negative).** With `w` in 1..65536 the directive prints what it prints with the
digits of `w` written in place of `*`. -/
theorem C09_star_width_written (dates : DateSyntax) (env : DateEnv) (d : Directive) (h : d.Ok dates)
    (hs : d.width = .star) (v : Traits) (w : Int) (hv : v.asInt = .ok w) (ds : JStr)
    (hd : WidthOk (.digits ds)) (hw : (decimalValue ds : Int) = w) (args : List Traits) :
    printf dates env d.text (v :: args) =
      printf dates env { d with width := .digits ds }.text args := by
  have hcap : decimalValue ds ≤ 65536 := hd.2.2.2
  rw [printf_dir_star h hs env hv, if_pos (by omega), setWidth_eq (.inr (.inr (by omega))),
    printf_dir (Directive.Ok.newWidth h hd (by simp)), append_noStar (context_noStar (by simp))]
  subst hw
  rfl

/-- **C09 (width, negative).** With `w` in -65536..-1 the directive prints what it prints with flag `-`
and the digits of `|w|` written in place of `*`. -/
theorem C09_star_width_negative (dates : DateSyntax) (env : DateEnv) (d : Directive) (h : d.Ok dates)
    (hs : d.width = .star) (v : Traits) (w : Int) (hv : v.asInt = .ok w) (ds : JStr)
    (hd : WidthOk (.digits ds)) (hw : -(decimalValue ds : Int) = w) (args : List Traits) :
    printf dates env d.text (v :: args) =
      printf dates env { d with flags := withMinus d.flags, width := .digits ds }.text args := by
  have hcap : decimalValue ds ≤ 65536 := hd.2.2.2
  have hpos := width_value_pos hd
  have hwr : wrap32 (-w) = decimalValue ds := by
    rw [wrap32_small (by omega)]; omega
  rw [printf_dir_star h hs env hv, if_neg (by omega), hwr, setWidth_eq (.inr (.inr (by omega))),
    printf_dir (Directive.Ok.newFlags h hd), append_noStar (context_noStar (by simp)), addFlag_eq]
  simp only [Directive.context, flagSet_withMinus]
  rfl

/-- **C09 (width out of range).** `|w| > 65536` is refused, except for `Integer.MIN_VALUE`. -/
theorem C09_star_width_refused (dates : DateSyntax) (env : DateEnv) (d : Directive) (h : d.Ok dates)
    (hs : d.width = .star) (v : Traits) (w : Int) (hv : v.asInt = .ok w)
    (hi : -2147483648 < w ∧ w ≤ 2147483647) (hw : 65536 < |w|) (args : List Traits) :
    printf dates env d.text (v :: args) = .error (.printf (.exceedsMaximum .width |w|)) := by
  rw [printf_dir_star h hs env hv]
  split_ifs with hge
  · rw [abs_of_nonneg hge] at hw ⊢
    simp only [FormatContext.setWidth, checkValue_over hw, bind_error]
  · rw [abs_of_neg (by omega)] at hw ⊢
    have hwr : wrap32 (-w) = -w := wrap32_small (by omega)
    simp only [FormatContext.setWidth, hwr, checkValue_over hw, bind_error]

/-- **C09 (width 0).** A `*` width of 0 is no width.  (Written out, `0` would be a flag.) -/
theorem C09_star_width_zero (dates : DateSyntax) (env : DateEnv) (d : Directive) (h : d.Ok dates)
    (hs : d.width = .star) (v : Traits) (hv : v.asInt = .ok 0)
    (hok : { d with width := .absent }.Ok dates) (args : List Traits)
    (ha : ∀ x ∈ args, x.WF ∧ x.HasDigits) :
    printf dates env d.text (v :: args) = printf dates env { d with width := .absent }.text args := by
  rw [printf_dir_star h hs env hv, if_pos (by omega), setWidth_eq (.inr (.inr (by omega))),
    printf_dir hok, append_noStar (context_noStar (by simp)), bind_ok]
  congr 1
  refine afterWidth_padsNothing (c2 := { d with width := .absent }.context)
    (c1 := { d.context with width := 0 }) ⟨rfl, rfl, rfl, ?_, ?_, .inr ⟨.inl rfl, .inr rfl⟩⟩ (stored_value h.prec) ha
  · exact le_refl (0 : Int)
  · simp only [Directive.context, Num.value, UNSET]; omega

/-- **C09 (width MIN_VALUE).** The negation of `Integer.MIN_VALUE` is itself, and happens to be the
constant that marks a `*`: it passes the range check and pads nothing. -/
theorem C09_star_width_minValue (dates : DateSyntax) (env : DateEnv) (d : Directive) (h : d.Ok dates)
    (hs : d.width = .star) (v : Traits) (hv : v.asInt = .ok (-2147483648)) (args : List Traits)
    (ha : ∀ x ∈ args, x.WF ∧ x.HasDigits) :
    printf dates env d.text (v :: args) =
      printf dates env { d with flags := withMinus d.flags, width := .absent }.text args := by
  have hwr : wrap32 (-(-2147483648)) = PRECEDING := by decide
  rw [printf_dir_star h hs env hv, if_neg (by omega), hwr, setWidth_eq (.inr (.inl rfl)),
    printf_dir (Directive.Ok.newFlags h (w := .absent) trivial), append_noStar (context_noStar (by simp)), bind_ok,
    addFlag_eq]
  congr 1
  refine afterWidth_padsNothing
    (c1 := { d.context with flags := { d.context.flags with leftJustify := true }, width := PRECEDING })
    (c2 := { d with flags := withMinus d.flags, width := .absent }.context) ⟨?_, rfl, rfl, ?_, ?_, .inl ?_⟩ (stored_value h.prec) ha
  · simp only [Directive.context, flagSet_withMinus]
  · show PRECEDING ≤ 0; decide
  · simp only [Directive.context, Num.value, UNSET]; omega
  · rfl

/-- **C09 (width not an integer).** The exception of the argument's `asInt` comes out. -/
theorem C09_star_width_unreadable (dates : DateSyntax) (env : DateEnv) (d : Directive) (h : d.Ok dates)
    (hs : d.width = .star) (v : Traits) (e : Err) (hv : v.asInt = .error e) (args : List Traits) :
    printf dates env d.text (v :: args) = .error e := by
  rw [printf_dir h, append_star (by simp [Directive.context, hs, Num.value]), hv]
  rfl

theorem printf_dir_starPrec {dates : DateSyntax} {d : Directive} (h : d.Ok dates)
    (hw : d.width ≠ .star) (hs : d.prec = .star)
    (env : DateEnv) {v : Traits} {p : Int} (hv : v.asInt = .ok p) (args : List Traits) :
    printf dates env d.text (v :: args) =
      (d.context.setPrecision (if p ≥ 0 then p else UNSET) >>= fun c =>
          DefaultAppender.valueStep env (convOf d.conv) c args) >>= fun r => r.1.appendToSB [] := by
  rw [printf_dir h, append_noStar (context_noStar hw),
    afterWidth_star (by simp [Directive.context, hs, Num.value]), hv]
  rfl

theorem context_noStarPrec {d : Directive} (h : d.prec ≠ .star) : d.context.precision ≠ PRECEDING := by
  have e2 : PRECEDING = -2147483648 := rfl
  cases hx : d.prec with
  | absent => simp only [Directive.context, hx]; decide
  | star => exact absurd hx h
  | digits ds => simp only [Directive.context, hx, Num.value]; omega

/-- **C09 (precision, non-negative).** With `p` in 0..65536 the directive prints what it prints with
the digits of `p` written in place of `*`. -/
theorem C09_star_precision_written (dates : DateSyntax) (env : DateEnv) (d : Directive)
    (h : d.Ok dates) (hw : d.width ≠ .star) (hs : d.prec = .star) (v : Traits) (p : Int)
    (hv : v.asInt = .ok p) (ds : JStr) (hd : (Num.digits ds).Ok) (hp : (decimalValue ds : Int) = p)
    (args : List Traits) :
    printf dates env d.text (v :: args) =
      printf dates env { d with prec := .digits ds }.text args := by
  have hcap : decimalValue ds ≤ 65536 := hd.2
  have hok : { d with prec := .digits ds }.Ok dates :=
    ⟨h.flagsOk, h.noRepeat, h.width, hd, h.conv, h.date, fun _ h2 => by cases h2.2.2⟩
  rw [printf_dir_starPrec h hw hs env hv, if_pos (by omega), setPrecision_eq (.inr (.inr (by omega))),
    printf_dir hok, append_noStar (context_noStar (by exact hw)),
    afterWidth_noStar (context_noStarPrec (by simp))]
  subst hp
  rfl

/-- **C09 (precision, negative).** A negative `*` precision is no precision. -/
theorem C09_star_precision_negative (dates : DateSyntax) (env : DateEnv) (d : Directive)
    (h : d.Ok dates) (hw : d.width ≠ .star) (hs : d.prec = .star) (v : Traits) (p : Int)
    (hv : v.asInt = .ok p) (hp : p < 0) (hok : { d with prec := .absent }.Ok dates)
    (args : List Traits) :
    printf dates env d.text (v :: args) = printf dates env { d with prec := .absent }.text args := by
  rw [printf_dir_starPrec h hw hs env hv, if_neg (by omega), setPrecision_eq (.inl rfl),
    printf_dir hok, append_noStar (context_noStar (by exact hw)),
    afterWidth_noStar (context_noStarPrec (by simp))]
  rfl

/-- **C09 (precision out of range).** -/
theorem C09_star_precision_refused (dates : DateSyntax) (env : DateEnv) (d : Directive)
    (h : d.Ok dates) (hw : d.width ≠ .star) (hs : d.prec = .star) (v : Traits) (p : Int)
    (hv : v.asInt = .ok p) (hp : 65536 < p) (args : List Traits) :
    printf dates env d.text (v :: args) = .error (.printf (.exceedsMaximum .precision p)) := by
  rw [printf_dir_starPrec h hw hs env hv, if_pos (by omega)]
  simp only [FormatContext.setPrecision, checkValue_over hp, bind_error]

/-- **C09 (precision not an integer).** -/
theorem C09_star_precision_unreadable (dates : DateSyntax) (env : DateEnv) (d : Directive)
    (h : d.Ok dates) (hw : d.width ≠ .star) (hs : d.prec = .star) (v : Traits) (e : Err)
    (hv : v.asInt = .error e) (args : List Traits) :
    printf dates env d.text (v :: args) = .error e := by
  rw [printf_dir h, append_noStar (context_noStar hw),
    afterWidth_star (by simp [Directive.context, hs, Num.value]), hv]
  rfl

/-- Every number in 1..65536 can be written as a width, every number in 0..65536 as a precision, so the
theorems above cover every value of the argument. -/
theorem C09_every_number_can_be_written (n : Nat) (h : n ≤ 65536) :
    (∃ ds, (Num.digits ds).Ok ∧ decimalValue ds = n) ∧
    (0 < n → ∃ ds, WidthOk (.digits ds) ∧ decimalValue ds = n) := by
  have ok : (Num.digits (natToString n)).Ok :=
    ⟨natToString_digits n, by rw [decimalValue_natToString]; exact h⟩
  refine ⟨⟨natToString n, ok, decimalValue_natToString n⟩, fun hp => ?_⟩
  refine ⟨natToString n, ⟨?_, ?_, ok⟩, decimalValue_natToString n⟩
  · intro hn
    have := decimalValue_natToString n
    rw [hn] at this
    simp [decimalValue] at this
    omega
  · exact toRadix_head_ne (by omega) (by omega)

example : printf sampleDates sampleDateEnv (js! "%*d|") [intArg 5#32, intArg 42#32] =
    .ok (js! "   42|") := rfl
example : printf sampleDates sampleDateEnv (js! "%*d|") [intArg (-5), intArg 42#32] =
    .ok (js! "42   |") := rfl
example : printf sampleDates sampleDateEnv (js! "%*d|") [intArg 0x80000000#32, intArg 42#32] =
    .ok (js! "42|") := rfl
example : printf sampleDates sampleDateEnv (js! "%*d|") [intArg 65537#32, intArg 42#32] =
    .error (.printf (.exceedsMaximum .width 65537)) := rfl
example : printf sampleDates sampleDateEnv (js! "%.*s|") [intArg 2#32, strArg (js! "hello")] =
    .ok (js! "he|") := rfl
example : printf sampleDates sampleDateEnv (js! "%.*s|") [intArg (-2), strArg (js! "hello")] =
    .ok (js! "hello|") := rfl

end FastPrintf
