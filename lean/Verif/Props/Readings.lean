/-
Properties C48 to C52: how arguments of every type are read by the conversions.

The tables in Spec/Readings.lean say which number (character, point in time) an argument stands for.  The
theorems say that a directive prints for it what it prints for that number, or throws what the table says,
and that the tables leave no argument out.  They are about one directive; C05 composes directives.
-/
import Verif.Proofs.Readings
import Verif.Props.Text
import Verif.Props.Floating
import Verif.Props.Star

namespace FastPrintf
open Spec DefaultAppender

/-! ### Integer conversions -/

theorem formatterFor_int {env : DateEnv} {c : JChar} (hc : c ∈ intConvs) (ctx : FormatContext) :
    ∃ k : IntForm → Res Seq, ∀ v : Traits, formatterFor env (convOf c) ctx v = v.asIntForm >>= k := by
  simp only [intConvs, List.mem_cons, List.not_mem_nil, or_false] at hc
  rcases hc with rfl | rfl | rfl | rfl | rfl | rfl <;> exact ⟨_, fun v => rfl⟩

/-- **C48.** Under the integer conversions an argument that is not of an integral type prints like the
integral value the table gives for it: a `float` or `double` truncated and saturated, a `BigDecimal`
truncated, a text parsed as a `long`, a date in milliseconds. -/
theorem C48_read_as_integer (dates : DateSyntax) (env : DateEnv) (jdk : JdkEnv) (d : Directive)
    (h : d.Ok dates) (hp : d.Plain) (hc : d.conv ∈ intConvs) (e : Entry) (x : Integral)
    (hr : IntReading jdk e (.ok x)) (e' : Entry) (hx : x.Given e') (rest : List Traits) :
    printf dates env d.text (e.toTraits jdk :: rest) = printf dates env d.text (e'.toTraits jdk :: rest) := by
  obtain ⟨k, hk⟩ := formatterFor_int (env := env) hc d.context
  rw [printf_plain h hp, printf_plain h hp, hk, hk, hr.form, hx.intForm jdk]
  rfl

/-- **C48 (exceptions).** Or the call ends with the exception the table gives. -/
theorem C48_no_integer (dates : DateSyntax) (env : DateEnv) (jdk : JdkEnv) (d : Directive)
    (h : d.Ok dates) (hp : d.Plain) (hc : d.conv ∈ intConvs) (e : Entry) (err : Err)
    (hr : IntReading jdk e (.error err)) (rest : List Traits) :
    printf dates env d.text (e.toTraits jdk :: rest) = .error err := by
  obtain ⟨k, hk⟩ := formatterFor_int (env := env) hc d.context
  rw [printf_plain h hp, hk, hr.form]
  rfl

theorem listed_prim {e : Entry} {p : Prim} (he : Holds e p) (hl : Listed e) :
    (∃ x : Integral, x.Given e) ∨ (∃ b, p = .float b) ∨ (∃ b, p = .double b) := by
  have mk : ∀ x : Integral, x.prim? = some p → ∃ x : Integral, x.Given e := by
    intro x hx
    cases he with
    | prim => exact ⟨x, .prim hx⟩
    | boxed p id => exact ⟨x, .boxed hx id⟩
  cases p with
  | bool b => exact .inl (mk (.bool b) rfl)
  | char c =>
    have hc : c < 65536 := by cases he <;> exact hl
    refine .inl (mk (.char (BitVec.ofNat 16 c)) ?_)
    simp only [Integral.prim?, BitVec.toNat_ofNat]
    rw [Nat.mod_eq_of_lt (by omega)]
  | byte v => exact .inl (mk (.byte v) rfl)
  | short v => exact .inl (mk (.short v) rfl)
  | int v => exact .inl (mk (.int v) rfl)
  | long v => exact .inl (mk (.long v) rfl)
  | float b => exact .inr (.inl ⟨b, rfl⟩)
  | double b => exact .inr (.inr ⟨b, rfl⟩)

/-- The kinds of arguments, for the completeness of the tables. -/
theorem Spec.Listed.cases {e : Entry} (h : Listed e) {P : Prop} (integral : ∀ x : Integral, x.Given e → P)
    (float : ∀ b, Holds e (.float b) → P) (double : ∀ b, Holds e (.double b) → P)
    (text : ∀ s, HoldsText e s → P) (big : ∀ u s id, e = .ref (.bigDecimal u s id) → P)
    (time : ∀ t s id, e = .ref (.temporal t s id) → P)
    (object : ∀ k t id, e = .ref (.object k t id) → P) (null : e = .ref .null → P) : P := by
  have prim : ∀ p, Holds e p → P := by
    intro p hp
    rcases listed_prim hp h with ⟨x, hx⟩ | ⟨b, rfl⟩ | ⟨b, rfl⟩
    · exact integral x hx
    · exact float b hp
    · exact double b hp
  cases e with
  | prim p => exact prim p (.prim p)
  | ref o =>
    cases o with
    | null => exact null rfl
    | boxed p id => exact prim p (.boxed p id)
    | string s id => exact text s (.string s id)
    | seq q id => obtain ⟨s, hs⟩ := h; exact text s (.seq hs id)
    | charSeq s id => exact text s (.charSeq s id)
    | bigInteger v id => exact integral (.big v) (.big v id)
    | bigDecimal u s id => exact big u s id rfl
    | temporal t s id => exact time t s id rfl
    | traits t => exact absurd h id
    | object k t id => exact object k t id rfl

/-- **C48 (completeness).** Every argument is of an integral type or in the table. -/
theorem C48_complete (jdk : JdkEnv) (e : Entry) (h : Listed e) :
    (∃ x : Integral, x.Given e) ∨ ∃ r, IntReading jdk e r := by
  refine h.cases (fun x hx => .inl ⟨x, hx⟩) (fun b hb => .inr ⟨_, .float hb⟩)
    (fun b hb => .inr ⟨_, .double hb⟩) (fun s hs => .inr ?_) ?_ ?_ ?_ ?_
  · by_cases hv : ∃ v, IntegerText jdk.digit s v ∧ minLong ≤ v ∧ v ≤ maxLong
    · obtain ⟨v, h1, h2, h3⟩ := hv; exact ⟨_, .text hs h1 h2 h3⟩
    · exact ⟨_, .noNumber hs hv⟩
  · rintro u s id rfl; exact .inr ⟨_, .bigDecimal u s id⟩
  · rintro t s id rfl
    right
    cases hi : jdk.instantFrom t with
    | none => exact ⟨_, .noInstant hi s id⟩
    | some i =>
      obtain ⟨sec, nano⟩ := i
      by_cases hr : minLong ≤ ⌊(sec * 1000 + nano / 1000000 : ℚ)⌋ ∧ ⌊(sec * 1000 + nano / 1000000 : ℚ)⌋ ≤ maxLong
      · exact ⟨_, .temporal hi rfl hr.1 hr.2 s id⟩
      · exact ⟨_, .tooFar hi rfl (by omega) s id⟩
  · rintro k t id rfl
    right
    cases k with
    | number l d i => exact ⟨_, .number l d i t id⟩
    | date ms i => exact ⟨_, .date ms i t id⟩
    | calendar ms => exact ⟨_, .calendar ms t id⟩
    | other => exact ⟨_, .other t id⟩
  · rintro rfl; exact .inr ⟨_, .null⟩

-- an identity for the examples
def Spec.someId : Identity := ⟨js! "X", 1#32⟩

/-- The directive `%` followed by a conversion. -/
def Spec.bare (c : JChar) : Directive := ⟨[], .absent, .absent, c, none⟩

theorem bare_ok {c : JChar} (h : c ∈ convChars) (hp : c ≠ ch! '%') :
    (bare c).Ok sampleDates :=
  ⟨by simp [bare], by simp [bare], trivial, trivial, h,
    by intro p hp; exact absurd hp (by simp [bare]), fun hc => absurd hc hp⟩

-- a `double` under `%d`: -2.75 prints like the `long` -2
example : printf sampleDates sampleDateEnv (js! "%d")
    [(Entry.prim (.double 0xC006000000000000#64)).toTraits sampleJdk] = .ok (js! "-2") := by decide +kernel
example : ∃ x, IntReading sampleJdk (.prim (.double 0xC006000000000000#64)) (.ok x) ∧
    printf sampleDates sampleDateEnv (js! "%d")
      [(Entry.prim (.double 0xC006000000000000#64)).toTraits sampleJdk] =
    printf sampleDates sampleDateEnv (js! "%d")
      [(Entry.prim (.long (BitVec.ofInt 64
        ((doubleDatum 0xC006000000000000#64).toInteger minLong maxLong truncation)))).toTraits sampleJdk] :=
  ⟨_, .double (.prim _), C48_read_as_integer sampleDates sampleDateEnv sampleJdk (bare (ch! 'd'))
    (bare_ok (by decide) (by decide)) ⟨by simp [bare], by simp [bare]⟩ (by decide) _ _
    (.double (.prim _)) _ (.prim rfl) []⟩
-- texts: a number, not a number, too large
example : IntegerText sampleJdk.digit (js! "-12") (-12) :=
  ⟨js! "12", 12, by decide, .snoc (ds := js! "1") (n := 1) (k := 2) (.snoc (ds := []) (n := 0) (k := 1) .nil rfl) rfl,
    .inl ⟨rfl, rfl⟩⟩
example : printf sampleDates sampleDateEnv (js! "%d") [strArg (js! "-12")] = .ok (js! "-12") := rfl
example : printf sampleDates sampleDateEnv (js! "%d") [strArg (js! "9223372036854775808")] =
    .error (.printf (.wrongType .textToInt)) := rfl
-- the `BigDecimal` -1.5 is the `BigInteger` -1
example : IntReading sampleJdk (.ref (.bigDecimal (-15) 1 someId)) (.ok (.big (truncation ((-15 : Int) * 10 ^ (-1 : Int))))) :=
  .bigDecimal (-15) 1 someId
example : printf sampleDates sampleDateEnv (js! "%d")
    [(Entry.ref (.bigDecimal (-15) 1 someId)).toTraits sampleJdk] = .ok (js! "-1") := rfl
-- `null`
example : IntReading sampleJdk (.ref .null) (.error (refused .nullToInt)) := .null
example : Listed (.ref (.string (js! "x") someId)) := trivial

/-! ### Floating-point conversions -/

theorem formatterFor_float {env : DateEnv} {c : JChar} (hc : c ∈ allFloatConvs) (ctx : FormatContext) :
    ∃ k : FloatForm → Res Seq, (∀ v : Traits, formatterFor env (convOf c) ctx v = v.asFloatForm >>= k) ∧
      ∀ f f' : FloatForm, f.isNaN = true → f'.isNaN = true → k f = k f' := by
  have n : ∀ f f' : FloatForm, f.isNaN = true → f'.isNaN = true →
      SeqFormatter.f ctx f = SeqFormatter.f ctx f' ∧ SeqFormatter.e ctx f = SeqFormatter.e ctx f' ∧
      SeqFormatter.g ctx f = SeqFormatter.g ctx f' ∧ SeqFormatter.a ctx f = SeqFormatter.a ctx f' := by
    intro f f' h h'
    simp [SeqFormatter.f, SeqFormatter.e, SeqFormatter.g, SeqFormatter.a, SeqFormatter.nanOrInfinity, h, h']
  simp only [allFloatConvs, List.mem_cons, List.not_mem_nil, or_false] at hc
  rcases hc with rfl | rfl | rfl | rfl | rfl | rfl | rfl | rfl <;>
    refine ⟨_, fun v => rfl, fun f f' h h' => ?_⟩ <;> simp only [n f f' h h']

theorem nan_isNaN {b : BitVec 64} (h : doubleDatum b = .nan) : (FloatForm.ofDouble b).isNaN = true := by
  unfold doubleDatum at h
  split_ifs at h with h1 h2
  show JavaDouble.isNaN b = true
  unfold JavaDouble.isNaN
  rw [expField_eq, fracField_eq]
  simp [h1, h2]

/-- **C49.** Under the floating-point conversions an argument prints like the `double` the table gives for
it: the nearest one to an integer, the same value for a `float`, the number `Double.parseDouble` finds in a
text, a date in seconds. -/
theorem C49_read_as_double (dates : DateSyntax) (env : DateEnv) (jdk : JdkEnv) (d : Directive)
    (h : d.Ok dates) (hp : d.Plain) (hc : d.conv ∈ allFloatConvs) (e : Entry) (b : BitVec 64)
    (hr : FloatReading jdk e (.ok (.double b))) (e' : Entry) (hx : IsDouble e' b) (rest : List Traits) :
    printf dates env d.text (e.toTraits jdk :: rest) = printf dates env d.text (e'.toTraits jdk :: rest) := by
  obtain ⟨k, hk, hn⟩ := formatterFor_float (env := env) hc d.context
  rw [printf_plain h hp, printf_plain h hp, hk, hk, hx.form jdk]
  rcases hr.form with g | ⟨b1, b2, g1, g2, g3, g4⟩
  · rw [g]; rfl
  · cases g2
    rw [g1, bind_ok, bind_ok, hn _ _ (nan_isNaN g3) (nan_isNaN g4)]

/-- **C49 (`BigInteger`).** A `BigInteger` prints like the `BigDecimal` of the same value with scale 0. -/
theorem C49_read_as_bigDecimal (dates : DateSyntax) (env : DateEnv) (jdk : JdkEnv) (d : Directive)
    (h : d.Ok dates) (hp : d.Plain) (hc : d.conv ∈ allFloatConvs) (e : Entry) (u s : Int)
    (hr : FloatReading jdk e (.ok (.big u s))) (id : Identity) (rest : List Traits) :
    printf dates env d.text (e.toTraits jdk :: rest) =
      printf dates env d.text ((Entry.ref (.bigDecimal u s id)).toTraits jdk :: rest) := by
  obtain ⟨k, hk, hn⟩ := formatterFor_float (env := env) hc d.context
  rw [printf_plain h hp, printf_plain h hp, hk, hk]
  rcases hr.form with g | ⟨b1, b2, g1, g2, g3, g4⟩
  · rw [g]; rfl
  · cases g2

/-- **C49 (exceptions).** -/
theorem C49_no_double (dates : DateSyntax) (env : DateEnv) (jdk : JdkEnv) (d : Directive)
    (h : d.Ok dates) (hp : d.Plain) (hc : d.conv ∈ allFloatConvs) (e : Entry) (err : Err)
    (hr : FloatReading jdk e (.error err)) (rest : List Traits) :
    printf dates env d.text (e.toTraits jdk :: rest) = .error err := by
  obtain ⟨k, hk, hn⟩ := formatterFor_float (env := env) hc d.context
  rw [printf_plain h hp, hk]
  rcases hr.form with g | ⟨b1, b2, g1, g2, g3, g4⟩
  · rw [g]; rfl
  · cases g2

/-- **C49 (completeness).** Every argument is a `double`, a `BigDecimal`, or in the table. -/
theorem C49_complete (jdk : JdkEnv) (hj : InstantsFit jdk) (e : Entry) (h : Listed e) :
    (∃ b, IsDouble e b) ∨ (∃ u s id, e = .ref (.bigDecimal u s id)) ∨ ∃ r, FloatReading jdk e r := by
  have hdate : ∀ ms : BitVec 64, ∃ a b, NearestDouble ms.toInt a ∧ NearestDouble (doubleValue a / 1000) b := by
    intro ms
    obtain ⟨a, ha⟩ : ∃ a, NearestDouble ms.toInt a :=
      ⟨_, JavaDouble.ofInt_nearest (integral_abs_le (x := .long ms) (by simp))⟩
    obtain ⟨b, hb⟩ := millis_exists ha
    exact ⟨a, b, ha, hb⟩
  refine h.cases ?_ (fun b hb => .inr (.inr ⟨_, .float hb (JavaDouble.ofFloat_datum b)⟩)) ?_
    (fun s hs => .inr (.inr ?_)) (fun u s id he => .inr (.inl ⟨u, s, id, he⟩)) ?_ ?_ ?_
  · intro x hx
    cases hx with
    | big v id => exact .inr (.inr ⟨_, .bigInteger v id⟩)
    | @prim x p hx =>
      have hb : ∀ v, x ≠ .big v := by rintro v rfl; simp [Integral.prim?] at hx
      exact .inr (.inr ⟨_, .integral (.prim hx) hb (JavaDouble.ofInt_nearest (integral_abs_le hb))⟩)
    | @boxed x p hx id =>
      have hb : ∀ v, x ≠ .big v := by rintro v rfl; simp [Integral.prim?] at hx
      exact .inr (.inr ⟨_, .integral (.boxed hx id) hb (JavaDouble.ofInt_nearest (integral_abs_le hb))⟩)
  · intro b hb
    left
    generalize hp : Prim.double b = p at hb
    cases hb with
    | prim => subst hp; exact ⟨b, .prim b⟩
    | boxed p id => subst hp; exact ⟨b, .boxed b id⟩
  · cases hd : jdk.parseDouble s with
    | none => exact ⟨_, .noNumber hs hd⟩
    | some b => exact ⟨_, .text hs hd⟩
  · rintro t s id rfl
    right; right
    cases hi : jdk.instantFrom t with
    | none => exact ⟨_, .noInstant hi s id⟩
    | some i =>
      obtain ⟨sec, nano⟩ := i
      obtain ⟨h1, h2, h3⟩ := hj _ _ _ hi
      obtain ⟨a, b, c, ha, hb, hc⟩ := instant_exists h1 h2 h3
      exact ⟨_, .temporal hi h1 h2 h3 ha hb hc s id⟩
  · rintro k t id rfl
    right; right
    cases k with
    | number l d i => exact ⟨_, .number l d i t id⟩
    | date ms i => obtain ⟨a, b, ha, hb⟩ := hdate ms; exact ⟨_, .date ha hb i t id⟩
    | calendar ms => obtain ⟨a, b, ha, hb⟩ := hdate ms; exact ⟨_, .calendar ha hb t id⟩
    | other => exact ⟨_, .other t id⟩
  · rintro rfl; exact .inr (.inr ⟨_, .null⟩)

-- JDK services with a clock
def Spec.clockJdk : JdkEnv := { sampleJdk with
  instantFrom := fun _ => some (-1, 500000000)
  parseDouble := fun _ => some 0x3FF8000000000000#64 }
example : InstantsFit clockJdk := by
  intro t sec nano h
  simp only [clockJdk, Option.some.injEq, Prod.mk.injEq] at h
  obtain ⟨rfl, rfl⟩ := h
  decide
-- an `int` is the nearest `double`; 2^53 + 1 (a `long`) is a tie and goes to even
example : NearestDouble ((3 : Int) : ℚ) (JavaDouble.ofInt 3) := JavaDouble.ofInt_nearest (by norm_num)
example : JavaDouble.ofInt 3 = 0x4008000000000000#64 := by decide +kernel
example : JavaDouble.ofInt 9007199254740993 = 0x4340000000000000#64 := by decide +kernel
example : printf sampleDates sampleDateEnv (js! "%.1f") [intArg 3#32] = .ok (js! "3.0") := by decide +kernel
-- half a second before the epoch, and 1500 ms after it
example : printf sampleDates sampleDateEnv (js! "%.3f")
    [(Entry.ref (.temporal (.obj .instant 0) (.ok []) someId)).toTraits clockJdk] = .ok (js! "-0.500") := by
  decide +kernel
example : printf sampleDates sampleDateEnv (js! "%.3f")
    [(Entry.ref (.object (.utilDate 1500#64) (.ok []) someId)).toTraits clockJdk] = .ok (js! "1.500") := by
  decide +kernel
example : ∃ r, FloatReading clockJdk (.ref (.object (.utilDate 1500#64) (.ok []) someId)) (.ok (.double r)) := by
  have ha := JavaDouble.ofInt_nearest (v := (1500#64).toInt) (by decide)
  obtain ⟨b, hb⟩ := millis_exists ha
  exact ⟨b, .date ha hb _ _ _⟩
-- a `float` keeps its value
example : JavaDouble.ofFloat 0x3DCCCCCD#32 = 0x3FB99999A0000000#64 := by decide
example : FloatReading sampleJdk (.prim (.float 0x3DCCCCCD#32)) (.ok (.double 0x3FB99999A0000000#64)) :=
  .float (.prim _) (by rw [← JavaDouble.ofFloat_datum]; rfl)

/-! ### `*` -/

/-- The `int` argument `n`. -/
def Spec.asIntArg (n : Int) : Entry := .prim (.int (BitVec.ofInt 32 n))

theorem StarReading.range {jdk : JdkEnv} {e : Entry} {n : Int} (h : StarReading jdk e (.ok n)) :
    minInt ≤ n ∧ n ≤ maxInt := by
  have clampR : ∀ (x : Datum) (r : ℚ → Int), minInt ≤ x.toInteger minInt maxInt r ∧
      x.toInteger minInt maxInt r ≤ maxInt := by
    intro x r
    cases x with
    | nan => simp only [Datum.toInteger]; decide
    | infinite b => simp only [Datum.toInteger]; cases b <;> decide
    | number b x =>
      simp only [Datum.toInteger]
      have : minInt ≤ maxInt := by decide
      omega
  generalize hr : (Except.ok n : Res Int) = r at h
  cases h with
  | integral h hn => cases hr; exact ⟨hn.1, hn.2.1⟩
  | float h => cases hr; exact clampR _ _
  | double h hn => cases hr; exact ⟨hn.1, hn.2.1⟩
  | bigDecimal u s id hn => cases hr; exact ⟨hn.1, hn.2.1⟩
  | text h hv h1 h2 => cases hr; exact ⟨h1, h2⟩
  | number l d i t id =>
    cases hr
    have h1 := BitVec.toInt_lt (x := i)
    have h2 := BitVec.le_toInt (x := i)
    unfold minInt maxInt
    exact ⟨by omega, by omega⟩
  | date ms i t id hn => cases hr; exact ⟨hn.1, hn.2.1⟩
  | calendar ms t id hn => cases hr; exact ⟨hn.1, hn.2.1⟩
  | temporal h hn s id => cases hr; exact ⟨hn.1, hn.2.1⟩
  | _ => cases hr

theorem asIntArg_asInt {jdk : JdkEnv} {n : Int} (h : minInt ≤ n ∧ n ≤ maxInt) :
    ((asIntArg n).toTraits jdk).asInt = .ok n := by
  unfold minInt maxInt at h
  simp only [asIntArg, Entry.toTraits, Prim.traits, intTraits]
  rw [BitVec.toInt_ofInt, Int.bmod_def]
  norm_num at *
  split_ifs <;> omega

theorem star_value {d : Directive} : (d.width = .star → d.context.width = PRECEDING) ∧
    (d.prec = .star → d.context.precision = PRECEDING) := by
  constructor <;> intro h <;> simp only [Directive.context, h] <;> rfl

/-- What a directive with a star in front does depends on the first argument through `asInt` only. -/
theorem printf_star_congr {dates : DateSyntax} {d : Directive} (h : d.Ok dates)
    (hs : d.width = .star ∨ d.prec = .star) (env : DateEnv) {v v' : Traits} (hv : v.asInt = v'.asInt)
    (rest : List Traits) :
    printf dates env d.text (v :: rest) = printf dates env d.text (v' :: rest) := by
  rw [printf_dir h, printf_dir h]
  congr 1
  by_cases hw : d.width = .star
  · simp only [append, starWidth, FormatContext.isPrecedingWidth, star_value.1 hw, if_true,
      nextInt, hv, beq_self_eq_true]
  · have hp : d.prec = .star := hs.resolve_left hw
    have hw' : d.context.width ≠ PRECEDING := context_noStar hw
    rw [append_noStar hw', append_noStar hw']
    unfold afterWidth
    simp only [starPrecision, FormatContext.isPrecedingPrecision, star_value.2 hp, if_true, nextInt, hv,
      beq_self_eq_true]

/-- **C50.** An argument under `*` counts as the `int` the table gives for it: a `long` or `BigInteger`
reduced to its low 32 bits, a `float` or `double` rounded, a text parsed, a date in seconds. -/
theorem C50_read_under_star (dates : DateSyntax) (env : DateEnv) (jdk : JdkEnv) (d : Directive)
    (h : d.Ok dates) (hs : d.width = .star ∨ d.prec = .star) (e : Entry) (n : Int)
    (hr : StarReading jdk e (.ok n)) (rest : List Traits) :
    printf dates env d.text (e.toTraits jdk :: rest) =
      printf dates env d.text ((asIntArg n).toTraits jdk :: rest) :=
  printf_star_congr h hs env (by rw [hr.int, asIntArg_asInt (StarReading.range hr)]) rest

/-- **C50 (exceptions).** -/
theorem C50_not_under_star (dates : DateSyntax) (env : DateEnv) (jdk : JdkEnv) (d : Directive)
    (h : d.Ok dates) (hs : d.width = .star ∨ d.prec = .star) (e : Entry) (err : Err)
    (hr : StarReading jdk e (.error err)) (rest : List Traits) :
    printf dates env d.text (e.toTraits jdk :: rest) = .error err := by
  rw [printf_dir h]
  have hi := hr.int
  by_cases hw : d.width = .star
  · simp only [append, starWidth, FormatContext.isPrecedingWidth, star_value.1 hw, if_true,
      nextInt, hi, beq_self_eq_true, bind_error]
  · have hp : d.prec = .star := hs.resolve_left hw
    rw [append_noStar (context_noStar hw)]
    unfold afterWidth
    simp only [starPrecision, FormatContext.isPrecedingPrecision, star_value.2 hp, if_true, nextInt, hi,
      beq_self_eq_true, bind_error]

/-- **C50 (second star).** The same for the precision after a starred width. -/
theorem C50_second_star (dates : DateSyntax) (env : DateEnv) (jdk : JdkEnv) (d : Directive)
    (h : d.Ok dates) (hw : d.width = .star) (hs : d.prec = .star) (v : Traits) (e : Entry) (n : Int)
    (hr : StarReading jdk e (.ok n)) (rest : List Traits) :
    printf dates env d.text (v :: e.toTraits jdk :: rest) =
      printf dates env d.text (v :: (asIntArg n).toTraits jdk :: rest) := by
  have hi : (e.toTraits jdk).asInt = ((asIntArg n).toTraits jdk).asInt := by
    rw [hr.int, asIntArg_asInt (StarReading.range hr)]
  rw [printf_dir h, printf_dir h]
  congr 1
  simp only [append, starWidth, FormatContext.isPrecedingWidth, star_value.1 hw, if_true,
    nextInt, beq_self_eq_true]
  cases hv : v.asInt with
  | error err => rfl
  | ok w =>
    simp only [bind_ok, pure_eq_ok]
    have k : ∀ c : FormatContext, c.precision = PRECEDING →
        starPrecision (convOf d.conv) c (e.toTraits jdk :: rest) = starPrecision (convOf d.conv) c ((asIntArg n).toTraits jdk :: rest) := by
      intro c hc
      simp only [starPrecision, FormatContext.isPrecedingPrecision, hc, if_true, nextInt, hi,
        beq_self_eq_true]
    have kp : ∀ (c c' : FormatContext) (w : Int), c.setWidth w = .ok c' → c'.precision = c.precision := by
      intro c c' w hw'
      unfold FormatContext.setWidth at hw'
      cases hcv : FormatContext.checkValue .width w with
      | error _ => rw [hcv] at hw'; cases hw'
      | ok _ => rw [hcv] at hw'; cases hw'; rfl
    by_cases hge : w ≥ 0
    · simp only [hge, if_true]
      cases hset : d.context.setWidth w with
      | error _ => rfl
      | ok c' =>
        simp only [bind_ok]
        rw [k c' (by rw [kp _ _ _ hset, star_value.2 hs])]
    · simp only [hge, if_false]
      cases hset : (d.context.addFlag .leftJustify).setWidth (wrap32 (-w)) with
      | error _ => rfl
      | ok c' =>
        simp only [bind_ok]
        rw [k c' (by rw [kp _ _ _ hset, addFlag_eq]; exact star_value.2 hs)]

/-- **C50 (completeness).** -/
theorem C50_complete (jdk : JdkEnv) (e : Entry) (h : Listed e) : ∃ r, StarReading jdk e r := by
  refine h.cases (fun x hx => ⟨_, .integral hx (wrap32_narrows _)⟩) (fun b hb => ⟨_, .float hb⟩)
    (fun b hb => ⟨_, .double hb (wrap32_narrows _)⟩) (fun s hs => ?_) ?_ ?_ ?_ ?_
  · by_cases hv : ∃ v, IntegerText jdk.digit s v ∧ minInt ≤ v ∧ v ≤ maxInt
    · obtain ⟨v, h1, h2, h3⟩ := hv; exact ⟨_, .text hs h1 h2 h3⟩
    · exact ⟨_, .noNumber hs hv⟩
  · rintro u s id rfl; exact ⟨_, .bigDecimal u s id (wrap32_narrows _)⟩
  · rintro t s id rfl
    cases hi : jdk.instantFrom t with
    | none => exact ⟨_, .noInstant hi s id⟩
    | some i => exact ⟨_, .temporal (nano := i.2) hi (wrap32_narrows i.1) s id⟩
  · rintro k t id rfl
    cases k with
    | number l d i => exact ⟨_, .number l d i t id⟩
    | date ms i => exact ⟨_, .date ms i t id (wrap32_narrows _)⟩
    | calendar ms => exact ⟨_, .calendar ms t id (wrap32_narrows _)⟩
    | other => exact ⟨_, .other t id⟩
  · rintro rfl; exact ⟨_, .null⟩

/-- **C50 (finding).** Narrowing is silent: a `long` that does not fit is a different width. -/
theorem C50_silent_narrowing :
    printf ⟨fun _ => true⟩ sampleDateEnv (js! "%*d")
        [(Entry.prim (.long 4294967301#64)).toTraits sampleJdk, intArg 7#32] = .ok (js! "    7") ∧
    printf ⟨fun _ => true⟩ sampleDateEnv (js! "%*d") [intArg 70000#32, intArg 7#32] =
      .error (.printf (.exceedsMaximum .width 70000)) := ⟨rfl, rfl⟩

-- the table gives the 5
example : StarReading sampleJdk (.prim (.long 4294967301#64)) (.ok 5) :=
  .integral (x := .long 4294967301#64) (.prim rfl) ⟨by decide, by decide, 1, by decide⟩
-- 2.5 is rounded up, -2.5 too
example : JavaDouble.mathRound 0x4004000000000000#64 = 3 := by decide
example : JavaDouble.mathRound 0xC004000000000000#64 = -2 := by decide
example : printf sampleDates sampleDateEnv (js! "%*d")
    [(Entry.prim (.double 0x4004000000000000#64)).toTraits sampleJdk, intArg 7#32] = .ok (js! "  7") := rfl
example : printf sampleDates sampleDateEnv (js! "%*.*f")
    [intArg 6#32, strArg (js! "2"), intArg 7#32] = .ok (js! "  7.00") := by decide +kernel
example : printf sampleDates sampleDateEnv (js! "%*d") [strArg (js! "x"), intArg 7#32] =
    .error (refused .textToInt) := rfl

/-! ### `%c` -/

/-- **C51.** `%c` prints the code unit the table gives for the argument, padded with spaces, or throws. -/
theorem C51_c (dates : DateSyntax) (env : DateEnv) (jdk : JdkEnv) (d : Directive) (h : d.Ok dates)
    (hp : d.Plain) (hc : d.conv = ch! 'c') (e : Entry) (r : Res JChar) (hr : CharReading jdk e r)
    (rest : List Traits) :
    printf dates env d.text (e.toTraits jdk :: rest) =
      r.map fun c => padded (ch! '-' ∈ d.flags) d.width.width [c] := by
  have hv := hr.char_eq
  cases r with
  | error err =>
    rw [printf_plain h hp, hc]
    show (SeqFormatter.c d.context _ >>= _) = _
    unfold SeqFormatter.c
    rw [hv]; rfl
  | ok c =>
    obtain ⟨r, r1, r2, r3⟩ := SeqFormatter.c_ok d.context hv
    have hf : formatterFor env (convOf d.conv) d.context (e.toTraits jdk) = .ok r := by
      rw [hc]; exact r1
    rw [printf_plain_ok h hp hf r2.sane, r3, field_padded, hp.width_eq, left_eq]
    rfl

/-- **C51 (completeness).** -/
theorem C51_complete (jdk : JdkEnv) (e : Entry) (h : Listed e) : ∃ r, CharReading jdk e r := by
  by_cases hs : ∃ s, HoldsText e s
  · obtain ⟨s, hs⟩ := hs
    cases s with
    | nil => exact ⟨_, .emptyText hs⟩
    | cons c s => exact ⟨_, .text hs⟩
  · by_cases ht : ∃ t s id, e = .ref (.temporal t s id)
    · obtain ⟨t, s, id, rfl⟩ := ht; exact ⟨_, .point t s id⟩
    · obtain ⟨r, hr⟩ := C50_complete jdk e h
      exact ⟨_, .number hr (fun s g => hs ⟨s, g⟩) (fun t s id g => ht ⟨t, s, id, g⟩)⟩

-- the double 65.5 is rounded to 66; a date has the low bits of its seconds; a point in time is refused
example : printf sampleDates sampleDateEnv (js! "%c")
    [(Entry.prim (.double 0x4050600000000000#64)).toTraits sampleJdk] = .ok (js! "B") := rfl
example : printf sampleDates sampleDateEnv (js! "%c")
    [(Entry.ref (.object (.utilDate 65000#64) (.ok []) someId)).toTraits sampleJdk] = .ok (js! "A") := rfl
example : printf sampleDates sampleDateEnv (js! "%c")
    [(Entry.ref (.temporal (.obj .instant 0) (.ok []) someId)).toTraits clockJdk] = .error (refused .temporalToChar) := rfl
example : CharReading clockJdk (.ref (.temporal (.obj .instant 0) (.ok []) someId)) (.error (refused .temporalToChar)) :=
  .point _ _ _

-- a slice of a rope, whose stored length is too small, is still read by its text
example : (do
    let u ← (Seq.concat0 (Seq.wrap (js! "xab")) (Seq.wrap (js! "cde"))).subSequence 1 5
    printf sampleDates sampleDateEnv (js! "%c%c") (List.replicate 2 ((Entry.ref (.seq u someId)).toTraits sampleJdk)))
    = .ok (js! "aa") := rfl

/-! ### `%t` -/

/-- **C52.** `%t` prints what the chosen JDK formatter prints for the point in time the argument stands
for, padded with spaces; the precision has no effect. -/
theorem C52_t (dates : DateSyntax) (env : DateEnv) (jdk : JdkEnv) (d : Directive) (h : d.Ok dates)
    (hp : d.Plain) (hc : d.conv = ch! 't') (e : Entry) (t : Temporal) (hr : TimeReading e (.ok t))
    (f : DateFmt) (t' : Temporal) (hf : Formatted d.date t (some (f, t'))) (rest : List Traits) :
    printf dates env d.text (e.toTraits jdk :: rest) =
      (env.format f t').map (padded (ch! '-' ∈ d.flags) d.width.width) := by
  have hch : SeqFormatter.chooseFormatter d.context t = .ok (f, t') := Formatted.choose (ctx := d.context) hf
  have hv := hr.temporal_eq (jdk := jdk)
  have hs : formatterFor env (convOf d.conv) d.context (e.toTraits jdk) =
      env.format f t' >>= fun s => SeqFormatter.spaceJustify d.context (Seq.wrap s) := by
    rw [hc]
    show SeqFormatter.t env d.context _ = _
    unfold SeqFormatter.t
    rw [hv, bind_ok, hch]; rfl
  cases hx : env.format f t' with
  | error err => rw [printf_plain h hp, hs, hx]; rfl
  | ok s =>
    obtain ⟨r, r1, r2, r3⟩ := SeqFormatter.spaceJustify_ok d.context (Seq.wrap_wf s)
    rw [hx, bind_ok, r1] at hs
    rw [printf_plain_ok h hp hs r2.sane, r3, Seq.wrap_text, field_padded, hp.width_eq, left_eq]
    rfl

/-- **C52 (no formatter).** Without a pattern, a type that has no default formatter is refused. -/
theorem C52_no_formatter (dates : DateSyntax) (env : DateEnv) (jdk : JdkEnv) (d : Directive)
    (h : d.Ok dates) (hp : d.Plain) (hc : d.conv = ch! 't') (e : Entry) (t : Temporal)
    (hr : TimeReading e (.ok t)) (hf : Formatted d.date t none) (rest : List Traits) :
    printf dates env d.text (e.toTraits jdk :: rest) = .error (.printf .noDefaultFormatter) := by
  have hch : SeqFormatter.chooseFormatter d.context t = .error (.printf .noDefaultFormatter) :=
    Formatted.choose (ctx := d.context) hf
  rw [printf_plain h hp, hc]
  show (SeqFormatter.t env d.context _ >>= _) = _
  unfold SeqFormatter.t
  rw [hr.temporal_eq, bind_ok, hch]; rfl

/-- **C52 (exceptions).** -/
theorem C52_no_time (dates : DateSyntax) (env : DateEnv) (jdk : JdkEnv) (d : Directive)
    (h : d.Ok dates) (hp : d.Plain) (hc : d.conv = ch! 't') (e : Entry) (err : Err)
    (hr : TimeReading e (.error err)) (rest : List Traits) :
    printf dates env d.text (e.toTraits jdk :: rest) = .error err := by
  rw [printf_plain h hp, hc]
  show (SeqFormatter.t env d.context _ >>= _) = _
  unfold SeqFormatter.t
  rw [hr.temporal_eq]; rfl

theorem CountsTime.reading {e : Entry} {n : Int} (h : CountsTime e n) : ∃ r, TimeReading e r := by
  by_cases h1 : n < 0
  · exact ⟨_, .negative h h1⟩
  · by_cases h2 : n < 2 ^ 32
    · exact ⟨_, .seconds h (by omega) h2⟩
    · exact ⟨_, .millis h (by omega)⟩

/-- **C52 (completeness).** -/
theorem C52_complete (e : Entry) (h : Listed e) :
    (∃ r, TimeReading e r) ∧ ∀ p t, ∃ r, Formatted p t r := by
  constructor
  · refine h.cases ?_ (fun b hb => ⟨_, .none (.float hb)⟩) (fun b hb => ⟨_, .none (.double hb)⟩)
      (fun s hs => ⟨_, .none (.text hs)⟩) ?_ ?_ ?_ ?_
    · intro x hx
      cases x with
      | int v => exact ⟨_, .int hx⟩
      | long v => exact CountsTime.reading (.long hx)
      | big v =>
        cases hx with
        | prim hx => cases hx
        | boxed hx => cases hx
        | big v id =>
          refine CountsTime.reading (n := wrap64 v) (.big ?_ ?_ (k := (v - wrap64 v) / 2 ^ 64) ?_ id)
          all_goals
            unfold wrap64
            rw [Int.bmod_def]
            first | unfold minLong | unfold maxLong | skip
            norm_num
            split_ifs <;> omega
      | byte v => exact ⟨_, .none (.small hx (by simp) (by simp) (by simp) (by simp))⟩
      | short v => exact ⟨_, .none (.small hx (by simp) (by simp) (by simp) (by simp))⟩
      | char v => exact ⟨_, .none (.char hx)⟩
      | bool v => exact ⟨_, .none (.small hx (by simp) (by simp) (by simp) (by simp))⟩
    · rintro u s id rfl; exact ⟨_, .none (.bigDecimal u s id)⟩
    · rintro t s id rfl; exact ⟨_, .temporal t s id⟩
    · rintro k t id rfl
      cases k with
      | number l d i => exact CountsTime.reading (.number l d i t id)
      | date ms i => exact ⟨_, .date ms i t id⟩
      | calendar ms => exact ⟨_, .calendar ms t id⟩
      | other => exact ⟨_, .none (.other t id)⟩
    · rintro rfl; exact ⟨_, .none .null⟩
  · intro p t
    cases p with
    | some p => exact ⟨_, .pattern p t⟩
    | none =>
      cases hk : t.kind with
      | instant => exact ⟨_, .instant hk⟩
      | offsetDateTime => exact ⟨_, .offset (.inl hk)⟩
      | zonedDateTime => exact ⟨_, .offset (.inr hk)⟩
      | localDateTime => exact ⟨_, .localDateTime hk⟩
      | localDate => exact ⟨_, .localDate hk⟩
      | other => exact ⟨_, .other hk⟩

/-- A formatter that shows what it was asked. -/
def Spec.showingDates : DateEnv where
  format
    | .pattern p, _ => .ok p
    | .isoOffsetDateTime, .atSystemZone (.stamp (.epochSecond s)) => .ok (js! "s" ++ intToString s)
    | .isoOffsetDateTime, .atSystemZone (.stamp (.epochMilli s)) => .ok (js! "m" ++ intToString s)
    | .isoOffsetDateTime, _ => .ok (js! "offset")
    | .isoLocalDateTime, _ => .ok (js! "local")
    | .isoLocalDate, _ => .ok (js! "date")

-- the negative `int` -1 is 4294967295 seconds; the `long` -1 is refused; 2^32 counts milliseconds
example : printf sampleDates showingDates (js! "%14t") [intArg (-1)] = .ok (js! "   s4294967295") := rfl
example : printf sampleDates showingDates (js! "%t") [(Entry.prim (.long (-1))).toTraits sampleJdk] =
    .error .illegalArgument := rfl
example : printf sampleDates showingDates (js! "%-12t|") [(Entry.prim (.long 4294967296#64)).toTraits sampleJdk] =
    .ok (js! "m4294967296 |") := rfl
example : TimeReading (.prim (.long 4294967296#64)) (.ok (.stamp (.epochMilli 4294967296))) :=
  .millis (n := 4294967296) (.long (v := 4294967296#64) (.prim rfl)) (by decide)
-- the default formatters
example : printf sampleDates showingDates (js! "%t %t")
    [(Entry.ref (.temporal (.obj .localDate 0) (.ok []) someId)).toTraits sampleJdk,
      (Entry.ref (.temporal (.obj .zonedDateTime 0) (.ok []) someId)).toTraits sampleJdk] =
    .ok (js! "date offset") := rfl
example : printf sampleDates showingDates (js! "%t")
    [(Entry.ref (.temporal (.obj .other 0) (.ok []) someId)).toTraits sampleJdk] =
    .error (.printf .noDefaultFormatter) := rfl
example : Formatted none (.obj .other 0) none := .other rfl
-- a `java.util.Date`; a `java.sql.Date`, whose `toInstant()` throws
example : printf sampleDates showingDates (js! "%t")
    [(Entry.ref (.object (.utilDate 5#64) (.ok []) someId)).toTraits sampleJdk] = .ok (js! "m5") := rfl
example : printf sampleDates showingDates (js! "%t")
    [(Entry.ref (.object (.date 5#64 (.error .external)) (.ok []) someId)).toTraits sampleJdk] =
    .error .external := rfl
example : TimeReading (.ref (.object (.date 5#64 (.error .external)) (.ok []) someId)) (.error .external) :=
  .date _ _ _ _
-- refusals
example : printf sampleDates showingDates (js! "%t") [strArg (js! "2024")] = .error (refused .noTemporal) := rfl
example : TimeReading (.ref (.string (js! "2024") someId)) (.error (refused .noTemporal)) := .none (.text (.string _ _))

end FastPrintf
