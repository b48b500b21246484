/-
Property C93: `%s` of a `BigDecimal`.
-/
import Verif.Spec.BigText
import Verif.Props.Records

namespace FastPrintf
open Spec DefaultAppender

/-- Sign, digits, and the exponent of a `BigDecimal` text. -/
theorem bigText_shape {u scale : Int} {t : JStr} (h : BigText u scale t) :
    ∃ ip fp tail, t = (if u < 0 then js! "-" else []) ++ (ip ++ fraction false fp ++ tail) ∧
      (∀ c ∈ ip, IsDigitIn 10 c) ∧ (∀ c ∈ fp, IsDigitIn 10 c) ∧ ip ≠ [] ∧
      (tail = [] ∨ ∃ ex, tail = ch! 'E' :: ex ∧ IsExponent ex) ∧ valueIn 10 (ip ++ fp) = u.natAbs ∧
      (fp.length : Int) - readExponent (tail.drop 1) = scale := by
  obtain ⟨ds, xs, ⟨⟨hne, hds⟩, hz, hv⟩, ⟨⟨hxne, hxs⟩, -, hxv⟩, rfl⟩ := h
  have hlen : 1 ≤ ds.length := List.length_pos_iff.2 hne
  by_cases hc : 0 ≤ scale ∧ -6 ≤ (ds.length : Int) - 1 - scale
  · rw [if_pos hc]
    unfold pointed
    by_cases hk : scale.toNat < ds.length
    · rw [if_pos hk]
      refine ⟨ds.take (ds.length - scale.toNat), ds.drop (ds.length - scale.toNat), [], by simp,
        fun c h => hds c (List.mem_of_mem_take h), fun c h => hds c (List.mem_of_mem_drop h), ?_, .inl rfl, ?_, ?_⟩
      · intro h
        have := congrArg List.length h
        simp only [List.length_take, List.length_nil] at this
        omega
      · rw [List.take_append_drop, hv]
      · simp only [List.length_drop, List.drop_nil, readExponent]
        omega
    · rw [if_neg hk]
      refine ⟨js! "0", List.replicate (scale.toNat - ds.length) (ch! '0') ++ ds, [], ?_, ?_, ?_, by simp, .inl rfl, ?_, ?_⟩
      · have : fraction false (List.replicate (scale.toNat - ds.length) (ch! '0') ++ ds) =
            ch! '.' :: (List.replicate (scale.toNat - ds.length) (ch! '0') ++ ds) := by
          rw [fraction, if_neg (by simp [hne])]
        rw [this]; simp
      · simp [IsDigitIn, digitVal]
      · intro c h
        rcases List.mem_append.1 h with h | h
        · rw [List.eq_of_mem_replicate h]; unfold IsDigitIn digitVal; decide
        · exact hds c h
      · rw [valueIn_append, valueIn_append, valueIn_replicate_zero, hv]
        simp [valueIn, digitVal]
      · simp only [List.length_append, List.length_replicate, List.drop_nil, readExponent]
        omega
  · rw [if_neg hc]
    refine ⟨ds.take 1, ds.drop 1, _, rfl, fun c h => hds c (List.mem_of_mem_take h),
      fun c h => hds c (List.mem_of_mem_drop h), ?_, .inr ⟨_, rfl, ?_, ?_, hxs⟩, ?_, ?_⟩
    · intro h
      have := congrArg List.length h
      simp only [List.length_take, List.length_nil] at this
      omega
    · split
      · exact .inl rfl
      · exact .inr (.inl rfl)
    · intro h; exact absurd h hxne
    · rw [List.take_append_drop, hv]
    · have : readExponent (((ch! 'E') :: (if (ds.length : Int) - 1 - scale < 0 then ch! '-' else ch! '+') :: xs).drop 1) =
          (ds.length : Int) - 1 - scale := by
        by_cases hn : (ds.length : Int) - 1 - scale < 0
        · simp only [if_pos hn, List.drop_succ_cons, List.drop_zero, readExponent, if_true, hxv]; omega
        · simp only [if_neg hn, List.drop_succ_cons, List.drop_zero, readExponent, hxv]
          rw [if_neg (by decide), if_pos trivial]; omega
      rw [this, List.length_drop]
      omega

/-- **C93 (`new BigDecimal` reads it).** The text gives back the unscaled value and the scale. -/
theorem C93_read {u scale : Int} {t : JStr} (h : BigText u scale t) : readBig t = (u, scale) := by
  obtain ⟨ip, fp, tail, rfl, h1, h2, h3, h4, h5, h6⟩ := bigText_shape h
  have digit : ∀ {c : Nat}, IsDigitIn 10 c → 48 ≤ c ∧ c ≤ 57 := by
    intro c hc
    obtain ⟨hc | hc, hd⟩ := hc
    · exact hc
    · unfold digitVal at hd; split_ifs at hd <;> omega
  obtain ⟨a, ip', rfl⟩ := List.exists_cons_of_ne_nil h3
  have ha := digit (h1 a (List.mem_cons_self ..))
  have hr : ∀ r : JStr, r = (a :: ip') ++ fraction false fp ++ tail →
      r.takeWhile (fun c => decide (c ≠ ch! 'e' ∧ c ≠ ch! 'E')) = (a :: ip') ++ fraction false fp ∧
      ((a :: ip') ++ fraction false fp).takeWhile (· ≠ ch! '.') = a :: ip' := by
    rintro r rfl
    constructor
    · refine takeWhile_stop ?_ ?_
      · intro c hc
        rw [decide_eq_true_eq]
        rcases List.mem_append.1 hc with hc | hc
        · have := digit (h1 c hc); omega
        · rcases mem_fraction hc with rfl | hc
          · decide
          · have := digit (h2 c hc); omega
      · rcases h4 with rfl | ⟨ex, rfl, -⟩
        · exact .inl rfl
        · exact .inr ⟨_, _, rfl, by decide⟩
    · refine takeWhile_stop ?_ ?_
      · intro c hc
        rw [decide_eq_true_eq]
        have := digit (h1 c hc); omega
      · unfold fraction
        split_ifs
        · exact .inl rfl
        · exact .inr ⟨_, _, rfl, by decide⟩
  obtain ⟨r1, r2⟩ := hr _ rfl
  have hfp : ((a :: ip') ++ fraction false fp).drop ((a :: ip').length + 1) = fp := by
    rw [List.drop_append, List.drop_eq_nil_of_le (by omega), List.nil_append,
      show (a :: ip').length + 1 - (a :: ip').length = 1 by omega]
    unfold fraction
    split_ifs with hf
    · simp [hf.1]
    · simp
  have htl : ((a :: ip') ++ fraction false fp ++ tail).drop (((a :: ip') ++ fraction false fp).length + 1) =
      tail.drop 1 := by
    rw [List.drop_append, List.drop_eq_nil_of_le (by omega), List.nil_append]
    congr 1; omega
  have hread : readScaled ((a :: ip') ++ fraction false fp ++ tail) = (u.natAbs, scale) := by
    unfold readScaled
    simp only [r1, r2]
    rw [hfp, htl, h5, h6]
  by_cases hu : u < 0
  · rw [if_pos hu]
    unfold readBig
    rw [show (js! "-" ++ ((a :: ip') ++ fraction false fp ++ tail)).head? = some (ch! '-') from rfl, if_pos rfl,
      show (js! "-" ++ ((a :: ip') ++ fraction false fp ++ tail)).drop 1 =
      (a :: ip') ++ fraction false fp ++ tail from rfl, hread]
    exact Prod.ext (by dsimp only; omega) rfl
  · rw [if_neg hu, List.nil_append]
    unfold readBig
    rw [show ((a :: ip') ++ fraction false fp ++ tail).head? = some a from rfl, if_neg (by simp; omega),
      if_neg (by simp; omega), hread]
    exact Prod.ext (by dsimp only; omega) rfl

/-- **C93 (the value).** As a number the text is the exact value. -/
theorem C93_value {u scale : Int} {t : JStr} (h : BigText u scale t) :
    javaNumber t = some (decide (u < 0), bigValue u.natAbs scale) := by
  obtain ⟨ip, fp, tail, rfl, h1, h2, h3, h4, h5, h6⟩ := bigText_shape h
  have low : ∀ tail' : JStr, (tail' = [] ∨ ∃ ex, tail' = ch! 'e' :: ex ∧ IsExponent ex) →
      tail'.drop 1 = tail.drop 1 →
      javaNumber ((if u < 0 then js! "-" else []) ++ (ip ++ fraction false fp ++ tail')) =
        some (decide (u < 0), bigValue u.natAbs scale) := by
    intro tail' ht he
    have hn : NumText (ip ++ fraction false fp ++ tail') ip fp false tail' := ⟨rfl, h1, h2, h3, ht⟩
    have := hn.java_field {} false false (decide (u < 0)) 0
    rw [hn.read, he, h5] at this
    rw [show readExponent (tail.drop 1) - (fp.length : Int) = -scale by omega] at this
    rw [← show bigValue u.natAbs scale = (u.natAbs : ℚ) * 10 ^ (-scale) from rfl] at this
    rw [← this]
    congr 1
    unfold Spec.field signText
    by_cases hu : u < 0 <;> simp [hu]
  rcases h4 with rfl | ⟨ex, rfl, hx⟩
  · exact low [] (.inl rfl) rfl
  · rw [← low (ch! 'e' :: ex) (.inr ⟨ex, rfl, hx⟩) rfl]
    refine javaNumber_case ?_
    simp only [List.map_append, List.map_cons]
    rfl

/-- **C93 (no two texts).** -/
theorem C93_unique {u scale : Int} {t t' : JStr} (h : BigText u scale t) (h' : BigText u scale t') : t = t' := by
  obtain ⟨ds, xs, h1, h2, rfl⟩ := h
  obtain ⟨ds', xs', h1', h2', rfl⟩ := h'
  obtain rfl := h1.unique (by omega) (by omega) h1'
  obtain rfl := h2.unique (by omega) (by omega) h2'
  rfl

/-- **C93 (scale 0).** A `BigDecimal` of scale 0 has the text of the integer. -/
theorem C93_integer {v : Int} {t : JStr} : BigText v 0 t ↔ DecimalText v t := by
  constructor
  · rintro ⟨ds, xs, h1, -, rfl⟩
    have : 1 ≤ ds.length := List.length_pos_iff.2 h1.1.1
    refine ⟨ds, h1, ?_⟩
    have hc : (0 : Int) ≤ 0 ∧ -6 ≤ (ds.length : Int) - 1 - 0 := ⟨le_refl _, by omega⟩
    have hk : (0 : Int).toNat < ds.length := this
    rw [if_pos hc, pointed, if_pos hk]
    simp [fraction]
  · rintro ⟨ds, h1, rfl⟩
    have : 1 ≤ ds.length := List.length_pos_iff.2 h1.1.1
    refine ⟨ds, _, h1, shortest_toRadix (by omega) (by omega) _, ?_⟩
    have hc : (0 : Int) ≤ 0 ∧ -6 ≤ (ds.length : Int) - 1 - 0 := ⟨le_refl _, by omega⟩
    have hk : (0 : Int).toNat < ds.length := this
    rw [if_pos hc, pointed, if_pos hk]
    simp [fraction]

/-! ### What `%s` prints -/

/-- **C93.** `%s` of a `BigDecimal`: the documented text, cut to the precision and padded with spaces. -/
theorem C93_s (dates : DateSyntax) (env : DateEnv) (jdk : JdkEnv) (hb : TellsBig jdk) (d : Directive)
    (h : d.Ok dates) (hp : d.Plain) (hc : d.conv = ch! 's') (u scale : Int) (id : Identity) (t : JStr)
    (ht : BigText u scale t) (rest : List Traits) :
    printf dates env d.text ((Entry.ref (.bigDecimal u scale id)).toTraits jdk :: rest) =
      .ok (d.padded (cut d.prec.precision t)) := by
  rw [C54_s dates env jdk d h hp hc _ _ (.bigDecimal u scale id) rest, C93_unique (hb u scale) ht]
  rfl

theorem bigText_inner {u scale : Int} {t : JStr} (h : BigText u scale t) : (∀ c ∈ t, c ∈ js! "+-.0123456789E") ∧ t ≠ [] := by
  obtain ⟨ip, fp, tail, rfl, h1, h2, h3, h4, -, -⟩ := bigText_shape h
  have digit : ∀ {c : Nat}, IsDigitIn 10 c → c ∈ js! "+-.0123456789E" := by
    intro c hc
    have : 48 ≤ c ∧ c ≤ 57 := by
      obtain ⟨hc | hc, hd⟩ := hc
      · exact hc
      · unfold digitVal at hd; split_ifs at hd <;> omega
    simp only [List.mem_cons, List.not_mem_nil, or_false]
    omega
  refine ⟨?_, by simp [h3]⟩
  intro c hc
  rcases List.mem_append.1 hc with hc | hc
  · split_ifs at hc
    · rw [List.mem_singleton.1 hc]; decide
    · cases hc
  · rcases List.mem_append.1 hc with hc | hc
    · rcases List.mem_append.1 hc with hc | hc
      · exact digit (h1 c hc)
      · rcases mem_fraction hc with rfl | hc
        · decide
        · exact digit (h2 c hc)
    · rcases h4 with rfl | ⟨ex, rfl, hx⟩
      · cases hc
      · rcases List.mem_cons.1 hc with rfl | hc
        · decide
        · rcases hx.chars c hc with rfl | rfl | hc
          · decide
          · decide
          · exact digit hc

/-- **C93 (back from the output).** Without a precision, `new BigDecimal` of the output without its padding is the
argument, unscaled value and scale. -/
theorem C93_back (dates : DateSyntax) (env : DateEnv) (jdk : JdkEnv) (hb : TellsBig jdk) (d : Directive)
    (h : d.Ok dates) (hp : d.Plain) (hc : d.conv = ch! 's') (hn : d.prec = .absent) (u scale : Int) (id : Identity)
    (rest : List Traits) :
    ∃ out, printf dates env d.text ((Entry.ref (.bigDecimal u scale id)).toTraits jdk :: rest) = .ok out ∧
      readBig (stripped (ch! '-' ∈ d.flags) out) = (u, scale) := by
  refine ⟨_, C93_s dates env jdk hb d h hp hc u scale id _ (hb u scale) rest, ?_⟩
  have hi := (bigText_inner (hb u scale)).1
  rw [hn, show Num.absent.precision = none from rfl, show ∀ t, cut none t = t from fun _ => rfl, Directive.padded,
    stripped_padded]
  · exact C93_read (hb u scale)
  · have : ∀ c ∈ jdk.bigDecimalToString u scale, c ≠ 32 := by
      rintro c hc rfl; exact absurd (hi _ hc) (by decide)
    split
    · intro hl; exact this _ (List.mem_of_getLast? hl) rfl
    · intro hl; exact this _ (List.mem_of_head? hl) rfl

/-- **C93 (injective).** Two `BigDecimal`s that print alike under `%s` without a precision are `equals`: `1.0` and
`1.00` differ. -/
theorem C93_injective (dates : DateSyntax) (env : DateEnv) (jdk : JdkEnv) (hb : TellsBig jdk) (d : Directive)
    (h : d.Ok dates) (hp : d.Plain) (hc : d.conv = ch! 's') (hn : d.prec = .absent) (u scale u' scale' : Int)
    (id id' : Identity) (rest rest' : List Traits)
    (heq : printf dates env d.text ((Entry.ref (.bigDecimal u scale id)).toTraits jdk :: rest) =
      printf dates env d.text ((Entry.ref (.bigDecimal u' scale' id')).toTraits jdk :: rest')) :
    u = u' ∧ scale = scale' := by
  obtain ⟨o, k1, k2⟩ := C93_back dates env jdk hb d h hp hc hn u scale id rest
  obtain ⟨o', k1', k2'⟩ := C93_back dates env jdk hb d h hp hc hn u' scale' id' rest'
  rw [k1, k1'] at heq
  cases heq
  rw [k2] at k2'
  exact Prod.mk.inj k2'

/-- **C93 (given back as a text).** The text of a `BigDecimal`, handed over as a `String`, prints under the
floating-point conversions like the double nearest to its value. -/
theorem C93_as_text (dates : DateSyntax) (env : DateEnv) (jdk : JdkEnv) (hpd : ParsesDoubles jdk) (d : Directive)
    (h : d.Ok dates) (hp : d.Plain) (hc : d.conv ∈ allFloatConvs) (u scale : Int) (t : JStr) (ht : BigText u scale t)
    (bits : BitVec 64) (hf : finite bits) (hs : negative bits ↔ u < 0)
    (hr : RoundsTo (magnitude bits) (doubleC bits % 2 = 0) (bigValue u.natAbs scale)) (e e' : Entry)
    (he : HoldsText e t) (he' : IsDouble e' bits) (rest : List Traits) :
    printf dates env d.text (e.toTraits jdk :: rest) = printf dates env d.text (e'.toTraits jdk :: rest) := by
  refine C49_read_as_double dates env jdk d h hp hc e bits (.text he (hpd.number t bits hf ?_)) e' he' rest
  exact ⟨_, by rw [C93_value ht]; simp [hs], hr⟩

/-- The text with a point is that of a decimal with as many places as the scale says. -/
theorem pointed_fixed {n : Nat} {ds : JStr} (h : Shortest 10 n ds) (k : Nat) : FixedText n k false (pointed ds k) := by
  obtain ⟨⟨hne, hds⟩, hz, hv⟩ := h
  have hlen : 1 ≤ ds.length := List.length_pos_iff.2 hne
  unfold pointed
  by_cases hk : k < ds.length
  · rw [if_pos hk]
    refine ⟨_, _, rfl, ⟨?_, fun c h => hds c (List.mem_of_mem_take h)⟩, ?_, fun c h => hds c (List.mem_of_mem_drop h), ?_, ?_⟩
    · intro h
      have := congrArg List.length h
      simp only [List.length_take, List.length_nil] at this
      omega
    · rcases hz with rfl | hz
      · have : k = 0 := by simpa using hk
        subst this
        exact .inl rfl
      · refine .inr ?_
        rw [List.head?_take, if_neg (by omega)]
        exact hz
    · simp; omega
    · rw [List.take_append_drop, hv]
  · rw [if_neg hk]
    refine ⟨js! "0", List.replicate (k - ds.length) (ch! '0') ++ ds, ?_, ⟨by simp, ?_⟩, .inl rfl, ?_, ?_, ?_⟩
    · rw [fraction, if_neg (by simp [hne])]; simp
    · simp [IsDigitIn, digitVal]
    · intro c h
      rcases List.mem_append.1 h with h | h
      · rw [List.eq_of_mem_replicate h]; unfold IsDigitIn digitVal; decide
      · exact hds c h
    · simp; omega
    · rw [valueIn_append, valueIn_append, valueIn_replicate_zero, hv]
      simp [valueIn, digitVal]

theorem field_false (left : Bool) (w : Nat) (pre s : JStr) : Spec.field left false w pre s = padded left w (pre ++ s) := by
  unfold Spec.field padded; cases left <;> simp

/-- **C93 (`%s` and `%f`).** For a scale that is not negative and a first digit no more than six places after the
point, `%s` prints what `%f` prints with the scale as its precision, in a field of the same width. -/
theorem C93_plain (dates : DateSyntax) (env : DateEnv) (jdk : JdkEnv) (hb : TellsBig jdk) (d d' : Directive)
    (h : d.Ok dates) (h' : d'.Ok dates) (hp : d.Plain) (hp' : d'.Plain) (hc : d.conv = ch! 's') (hc' : d'.conv = ch! 'f')
    (hn : d.prec = .absent) (hfl : ∀ c ∈ d'.flags, c = ch! '-') (hl : ch! '-' ∈ d.flags ↔ ch! '-' ∈ d'.flags)
    (hw : d.width.width = d'.width.width) (u : Int) (scale n : Nat) (hq : d'.prec.precision = some scale)
    (hd : DigitCount u.natAbs n) (hs : ScaleOk n scale) (h6 : scale ≤ n + 5) (id : Identity) (rest : List Traits) :
    printf dates env d.text ((Entry.ref (.bigDecimal u scale id)).toTraits jdk :: rest) =
      printf dates env d'.text ((Entry.ref (.bigDecimal u scale id)).toTraits jdk :: rest) := by
  obtain ⟨ds, xs, k1, k2, k3⟩ := hb u scale
  have hln : ds.length = n := by
    obtain ⟨ds', k1', rfl⟩ := hd
    rw [k1.unique (by omega) (by omega) k1']
  have hcond : (0 : Int) ≤ scale ∧ -6 ≤ (ds.length : Int) - 1 - scale := ⟨by omega, by omega⟩
  rw [if_pos hcond, Int.toNat_natCast] at k3
  obtain ⟨body, b1, b2⟩ := C28_f dates env jdk d' h' hp' hc' u scale _ (.decimal u scale id) n hd hs (.inr (by omega)) rest
  rw [C93_s dates env jdk hb d h hp hc u scale id _ (hb u scale) rest, b1, k3, hn]
  rw [hq] at b2
  have hflag : ∀ c, c ≠ ch! '-' → c ∉ d'.flags := fun c h1 h2 => h1 (hfl c h2)
  have alt : (flagSet d'.flags).alternate = false := by simp [flagSet, hflag]
  have hval : halfUp (bigValue u.natAbs scale) ((some scale).getD 6 : Nat) = u.natAbs := by
    unfold halfUp bigValue
    rw [Option.getD_some, mul_assoc, ← zpow_add₀ (by norm_num : (10 : ℚ) ≠ 0)]
    simp only [neg_add_cancel, zpow_zero, mul_one]
    rw [Nat.floor_eq_iff (by positivity)]
    constructor <;> linarith
  rw [alt, hval] at b2
  rw [FixedText.unique b2 (pointed_fixed k1 scale)]
  show Except.ok (d.padded _) = Except.ok _
  congr 1
  have hz : (flagSet d'.flags).zeroPad = false := by simp [flagSet, hflag]
  unfold Directive.padded Directive.field signText
  rw [hz, hw, field_false]
  simp only [show Num.absent.precision = none from rfl, cut, flagSet, hl]
  by_cases hu : u < 0 <;> simp [hu, hflag]

/-! ### Examples -/

/-- A JDK that does what the documentation says, for the examples. -/
def bigJdk : JdkEnv :=
  { sampleJdk with
    bigDecimalToString := fun u scale =>
      let ds := toRadix 10 u.natAbs
      let x := (ds.length : Int) - 1 - scale
      (if u < 0 then js! "-" else []) ++
        if 0 ≤ scale ∧ -6 ≤ x then pointed ds scale.toNat
        else ds.take 1 ++ fraction false (ds.drop 1) ++
          ch! 'E' :: (if x < 0 then ch! '-' else ch! '+') :: toRadix 10 x.natAbs }

theorem bigJdk_tells : TellsBig bigJdk := fun _ _ =>
  ⟨_, _, shortest_toRadix (by omega) (by omega) _, shortest_toRadix (by omega) (by omega) _, rfl⟩

def bigEntry (u scale : Int) : Entry := .ref (.bigDecimal u scale ⟨js! "java.math.BigDecimal", 1#32⟩)

-- padded, in both notations; `1.0` and `1.00`; the smallest scale
example : printf sampleDates sampleDateEnv (js! "%10s|%-10s|%s|%s")
      ([bigEntry (-123) 5, bigEntry 123 10, bigEntry 10 1, bigEntry 100 2].map (·.toTraits bigJdk)) =
    .ok (js! "  -0.00123|1.23E-8   |1.0|1.00") := by decide +kernel
example : printf sampleDates sampleDateEnv (js! "%s %s") ([bigEntry 7 (-2147483648), bigEntry 0 7].map (·.toTraits bigJdk)) =
    .ok (js! "7E+2147483648 0E-7") := by decide +kernel
example : readBig (js! "7E+2147483648") = (7, -2147483648) ∧ readBig (js! "0E-7") = (0, 7) := by decide +kernel
-- `%s` and `%.3f` agree on 12.340, but not on 1.2E-7, whose first digit is seven places after the point
example : printf sampleDates sampleDateEnv (js! "%s %.3f") ([bigEntry 12340 3, bigEntry 12340 3].map (·.toTraits bigJdk)) =
    .ok (js! "12.340 12.340") := by decide +kernel
example : printf sampleDates sampleDateEnv (js! "%s %.8f") ([bigEntry 12 8, bigEntry 12 8].map (·.toTraits bigJdk)) =
    .ok (js! "1.2E-7 0.00000012") := by decide +kernel
-- with a precision the text is cut, so different numbers print alike
example : printf sampleDates sampleDateEnv (js! "%.3s") [(bigEntry 1234 0).toTraits bigJdk] =
    printf sampleDates sampleDateEnv (js! "%.3s") [(bigEntry 1239 0).toTraits bigJdk] := by decide +kernel
-- a column for a `BigDecimal`
example (u scale : Int) (id : Identity) :
    Cell bigJdk (bare (ch! 's')) (.ref (.bigDecimal u scale id)) (.text (bigJdk.bigDecimalToString u scale)) := by
  refine .text rfl (by simp [bare, Num.precision]) (.bigDecimal u scale id) ?_
  rw [if_neg (by simp [bare])]
  intro hl
  exact absurd ((bigText_inner (bigJdk_tells u scale)).1 _ (List.mem_of_head? hl)) (by decide)

end FastPrintf
