/-
C97: `BigDecimal`s beyond the reach of `BigInteger`.

The other properties compute with integers of any size.  Here a `BigInteger` has a largest number, of which
nothing is assumed; the documentation of the JDK promises `promised`.
-/
import Verif.Proofs.BigLimits
import Verif.Props.BigDecimal
import Verif.Props.Readings

namespace FastPrintf
open Spec DefaultAppender

/-- **C97.**  Arguments within reach are formatted as in the other properties: the returned text or exception,
and what any target holds afterwards. -/
theorem C97_in_reach (lim : BigLimits) (dates : DateSyntax) (env : DateEnv) (jdk : JdkEnv) (f : JStr)
    (args : List Entry) (h : ∀ a ∈ args, InReach lim.limit a) :
    printf dates env f (args.map (Limited.toTraits lim jdk)) = printf dates env f (args.map (Entry.toTraits jdk)) ∧
    ∀ apps, Compiler.compile dates f = .ok apps →
      (∀ sb, (runSB env apps (args.map (Limited.toTraits lim jdk)) sb).target =
        (runSB env apps (args.map (Entry.toTraits jdk)) sb).target) ∧
      ∀ (σ : Type) (k : Sink σ) (st : σ),
        (runSink env k apps (args.map (Limited.toTraits lim jdk)) st).target =
          (runSink env k apps (args.map (Entry.toTraits jdk)) st).target := by
  have ha := Limited.allAlike (lim := lim) (env := env) (jdk := jdk) h
  refine ⟨printf_ready ha, fun apps hc => ?_⟩
  obtain ⟨ps, hr, rfl⟩ := (compile_iff dates f _).1 hc
  have hs : ∀ a ∈ ps.map Piece.compiled, a.Stored := by
    intro a ha
    obtain ⟨p, hp, rfl⟩ := List.mem_map.1 ha
    exact Piece.compiled_stored (hr.ok p hp)
  exact ⟨fun sb => (runSB_ready hs sb ha).1, fun σ k st => (runSink_ready k hs st ha).1⟩

theorem twoPow_eq (k : Nat) : twoPow k = 2 ^ k := by
  unfold twoPow
  rfl

theorem promised_form : ∃ k : Nat, k = 2147483647 ∧ promised = 2 ^ k := by
  have h : ∃ k : Nat, k = 2147483647 ∧ promised = twoPow k := ⟨2147483647, rfl, by unfold promised; rfl⟩
  obtain ⟨k, hk, h⟩ := h
  exact ⟨k, hk, h.trans (twoPow_eq k)⟩

theorem pow_ten_lt {n k : Nat} (h : 10 * (n / 3 + 1) ≤ k) : 10 ^ n < 2 ^ k := by
  calc 10 ^ n < 10 ^ (3 * (n / 3 + 1)) := Nat.pow_lt_pow_right (by omega) (by omega)
    _ = (10 ^ 3) ^ (n / 3 + 1) := pow_mul _ _ _
    _ ≤ (2 ^ 10) ^ (n / 3 + 1) := Nat.pow_le_pow_left (by omega) _
    _ = 2 ^ (10 * (n / 3 + 1)) := (pow_mul _ _ _).symm
    _ ≤ 2 ^ k := Nat.pow_le_pow_right (by omega) h

theorem two_pow_le {n k : Nat} (h : k ≤ 3 * n) : 2 ^ k ≤ 10 ^ n := by
  calc 2 ^ k ≤ 2 ^ (3 * n) := Nat.pow_le_pow_right (by omega) h
    _ = (2 ^ 3) ^ n := pow_mul _ _ _
    _ ≤ 10 ^ n := Nat.pow_le_pow_left (by omega) _

/-- **C97.**  By the documentation of the JDK, a `BigDecimal` is within reach if its digits and the absolute
value of its scale add up to no more than 644 million. -/
theorem C97_promised (limit : Nat) (hl : promised ≤ limit) (u scale : Int) (id : Identity) (k : Nat)
    (hu : u.natAbs < 10 ^ k) (hk : k + scale.natAbs ≤ 644000000) :
    InReach limit (.ref (.bigDecimal u scale id)) := by
  have hp : ∀ n : Nat, n ≤ 644000000 → 10 ^ n < limit := by
    intro n hn
    refine lt_of_lt_of_le ?_ hl
    obtain ⟨m, hm, e⟩ := promised_form
    rw [e]
    exact pow_ten_lt (by omega)
  refine ⟨⟨lt_trans hu (hp k (by omega)), by omega, by omega⟩, hp _ (by omega), ?_⟩
  rintro (⟨h1, h2⟩ | ⟨h1, h2, h3 | h3⟩)
  · have := hp scale.toNat (by omega)
    omega
  · omega
  · have h4 := hp (k + (-scale).toNat) (by omega)
    rw [pow_add] at h4
    have h5 : u.natAbs * 10 ^ (-scale).toNat ≤ 10 ^ k * 10 ^ (-scale).toNat := Nat.mul_le_mul_right _ hu.le
    omega

/-- **C97.**  `%f` of a big number throws an `ArithmeticException` if rounding it divides by a power of ten out
of reach; otherwise it prints what C28 says. -/
theorem C97_f (lim : BigLimits) (dates : DateSyntax) (env : DateEnv) (jdk : JdkEnv) (d : Directive)
    (h : d.Ok dates) (hp : d.Plain) (hc : d.conv = ch! 'f' ∨ d.conv = ch! 'F') (u scale : Int) (e : Entry)
    (he : IsBig e u scale) (hu : u.natAbs < lim.limit) (n : Nat) (hn : DigitCount u.natAbs n)
    (rest : List Traits) :
    (TooFine lim.limit n scale (d.prec.precision.getD 6) →
      printf dates env d.text (Limited.toTraits lim jdk e :: rest) = .error .arithmetic) ∧
    (¬ TooFine lim.limit n scale (d.prec.precision.getD 6) →
      printf dates env d.text (Limited.toTraits lim jdk e :: rest) =
        printf dates env d.text (e.toTraits jdk :: rest)) := by
  have e1 : (Limited.toTraits lim jdk e).asFloatForm = .ok (Limited.floatForm lim u scale) := by cases he <;> rfl
  have e2 := he.form jdk
  have hd := BigDecimalWrapper.precision_eq hn.digits scale
  have e6 := precision6_eq hp
  constructor
  · rintro ⟨h1, h2, h3⟩
    have hf := Limited.f_fails (lim := lim) (ctx := d.context) (u := u) (σ := scale)
      (Limited.decimalLayout_fails (by rw [e6]; exact h1) (by rw [hd]; exact h2) (by rw [e6]; exact h3))
    rw [printf_plain h hp]
    rcases hc with hc | hc
    · rw [hc, show convOf (ch! 'f') = .f from rfl]
      simp only [formatterFor, e1, bind_ok, hf]
      rfl
    · rw [hc, show convOf (ch! 'F') = .upperF from rfl]
      simp only [formatterFor, e1, bind_ok, hf]
      rfl
  · intro hx
    have hf := Limited.f_same (lim := lim) (ctx := d.context) (u := u) (σ := scale)
      (Limited.decimalLayout_same hu (by
        rw [e6, hd]
        exact hx))
    rw [printf_plain h hp, printf_plain h hp]
    rcases hc with hc | hc
    · rw [hc, show convOf (ch! 'f') = .f from rfl]
      simp only [formatterFor, e1, e2, bind_ok, hf]
    · rw [hc, show convOf (ch! 'F') = .upperF from rfl]
      simp only [formatterFor, e1, e2, bind_ok, hf]

/-- **C97.**  Where `%f` throws for this reason, there is next to nothing to print: the value rounds to zero,
or to one unit in the last place asked for. -/
theorem C97_nothing_lost (limit n : Nat) (u scale : Int) (p : Nat) (hu : u.natAbs < limit)
    (h : TooFine limit n scale p) : halfUp (bigValue u.natAbs scale) p ≤ 1 := by
  obtain ⟨h1, -, h3⟩ := h
  obtain ⟨k, hk⟩ : ∃ k : Nat, scale = p + k := ⟨(scale - p).toNat, by omega⟩
  rw [show (scale - p).toNat = k by omega] at h3
  have hlt : u.natAbs < 10 ^ k := by omega
  have hq : bigValue u.natAbs scale * 10 ^ p < 1 := by
    unfold bigValue
    rw [hk, neg_add, zpow_add₀ (by norm_num), zpow_neg, zpow_neg, zpow_natCast, zpow_natCast]
    have hp : (0 : ℚ) < 10 ^ k := by positivity
    have : ((u.natAbs : ℚ)) < 10 ^ k := by exact_mod_cast hlt
    have hpp : (10 : ℚ) ^ p ≠ 0 := by positivity
    calc (u.natAbs : ℚ) * ((10 ^ p)⁻¹ * (10 ^ k)⁻¹) * 10 ^ p = u.natAbs / 10 ^ k := by field_simp
      _ < 1 := by rw [div_lt_one hp]; exact this
  unfold halfUp
  rw [zpow_natCast]
  have : ⌊bigValue u.natAbs scale * 10 ^ p + 1 / 2⌋₊ < 2 := by
    rw [Nat.floor_lt (by unfold bigValue; positivity)]
    push_cast
    linarith
  omega

/-- **C97.**  The conversions `e`, `g`, `a`, `s`, `p` and the rest that do not ask for an integer print every big
number as in the other properties, however large its scale: they need no number above the unscaled value. -/
theorem C97_others (lim : BigLimits) (dates : DateSyntax) (env : DateEnv) (jdk : JdkEnv) (d : Directive)
    (h : d.Ok dates) (hp : d.Plain) (hc : d.conv ∈ js! "eEgGaAsSpntT%") (u scale : Int) (e : Entry)
    (he : IsBig e u scale) (hu : u.natAbs < lim.limit) (rest : List Traits) :
    printf dates env d.text (Limited.toTraits lim jdk e :: rest) =
      printf dates env d.text (e.toTraits jdk :: rest) := by
  have e1 : (Limited.toTraits lim jdk e).asFloatForm = .ok (Limited.floatForm lim u scale) := by cases he <;> rfl
  have e2 := he.form jdk
  have e3 : (Limited.toTraits lim jdk e).asSeq = (e.toTraits jdk).asSeq := by cases he <;> rfl
  have e4 : (Limited.toTraits lim jdk e).ref = (e.toTraits jdk).ref := by cases he <;> rfl
  have e5 : (Limited.toTraits lim jdk e).asTemporal = (e.toTraits jdk).asTemporal := by cases he <;> rfl
  have hr : Ready d.context := by
    have := Piece.compiled_stored (p := .dir d) h
    refine ready_of_stars (sp := .d) (c := d.context) (args := []) (r := []) (r' := []) this.1 this.2 ?_ ?_
    · show starWidth .d d.context [] = _
      unfold starWidth
      rw [if_neg (by simpa [FormatContext.isPrecedingWidth] using hp.width_ne)]
    · unfold starPrecision
      rw [if_neg (by simpa [FormatContext.isPrecedingPrecision] using hp.prec_ne)]
  rw [printf_plain h hp, printf_plain h hp]
  congr 1
  simp only [List.mem_cons, List.not_mem_nil, or_false] at hc
  rcases hc with hc | hc | hc | hc | hc | hc | hc | hc | hc | hc | hc | hc | hc <;> rw [hc] <;>
    simp only [convOf, formatterFor, e1, e2, bind_ok, Limited.e_same hu, Limited.g_same hr hu, Limited.a_same,
      SeqFormatter.s, SeqFormatter.p, SeqFormatter.t, e3, e4, e5]

/-- **C97.**  The integer conversions throw an `ArithmeticException` if the integer part of a `BigDecimal` cannot
be computed; otherwise they print as in the other properties. -/
theorem C97_integer (lim : BigLimits) (dates : DateSyntax) (env : DateEnv) (jdk : JdkEnv) (d : Directive)
    (h : d.Ok dates) (hp : d.Plain) (hc : d.conv ∈ js! "diuoxX") (u scale : Int) (id : Identity)
    (hs : -2147483648 ≤ scale) (rest : List Traits) :
    (NoInteger lim.limit u scale →
      printf dates env d.text (Limited.toTraits lim jdk (.ref (.bigDecimal u scale id)) :: rest) =
        .error .arithmetic) ∧
    (¬ NoInteger lim.limit u scale →
      printf dates env d.text (Limited.toTraits lim jdk (.ref (.bigDecimal u scale id)) :: rest) =
        printf dates env d.text ((Entry.ref (.bigDecimal u scale id)).toTraits jdk :: rest)) := by
  have hq : (convOf d.conv).question = .integer := by
    simp only [List.mem_cons, List.not_mem_nil, or_false] at hc
    rcases hc with hc | hc | hc | hc | hc | hc <;> rw [hc] <;> rfl
  rw [printf_plain h hp, printf_plain h hp]
  constructor
  · intro hx
    rw [formatterFor_refuses (e := .arithmetic)]
    · rfl
    · rw [hq]
      show (do return IntForm.ofBigInteger (← Limited.truncate lim u scale)) = _
      rw [Limited.truncate_fails hx]
      rfl
  · intro hx
    congr 1
    refine formatterFor_same ?_
    rw [hq]
    show (do return IntForm.ofBigInteger (← Limited.truncate lim u scale)) = _
    rw [Limited.truncate_ok hx hs]
    rfl

/-- **C97.**  The same `BigDecimal` as a `*` or under `%c`: it is refused if the JDK finds `intValue()` by way of
the integer part, and otherwise counts as its low 32 bits. -/
theorem C97_count (lim : BigLimits) (jdk : JdkEnv) (u scale : Int) (id : Identity)
    (hx : NoInteger lim.limit u scale) (q : Question) (hq : q = .count ∨ q = .character) :
    (lim.viaInteger = true →
      Refuses (Limited.toTraits lim jdk (.ref (.bigDecimal u scale id))) .arithmetic q) ∧
    (lim.viaInteger = false →
      SameAnswer (Limited.toTraits lim jdk (.ref (.bigDecimal u scale id)))
        ((Entry.ref (.bigDecimal u scale id)).toTraits jdk) q) := by
  have hi : Limited.intValue lim u scale =
      if lim.viaInteger then .error .arithmetic else .ok (wrap32 (bigDecimalTruncate u scale)) := by
    unfold Limited.intValue
    rw [Limited.truncate_fails hx]
    rfl
  constructor <;> intro hv <;> rw [hv] at hi <;> rcases hq with rfl | rfl
  · exact hi
  · show (do return toChar (← Limited.intValue lim u scale)) = _
    rw [hi]
    rfl
  · exact hi
  · show (do return toChar (← Limited.intValue lim u scale)) = _
    rw [hi]
    rfl

/-! ### Examples -/

theorem promised_le {n : Nat} (h : 2147483647 ≤ 3 * n) : promised ≤ 10 ^ n := by
  obtain ⟨m, hm, e⟩ := promised_form
  rw [e]
  exact two_pow_le (by omega)

theorem one_lt_promised : 1 < promised := by
  obtain ⟨m, hm, e⟩ := promised_form
  rw [e]
  exact Nat.one_lt_pow (by omega) (by omega)

theorem unadorned_ok {c : JChar} (h : c ∈ convChars) (h' : c ≠ ch! '%') (dates : DateSyntax) :
    Directive.Ok dates ⟨[], .absent, .absent, c, none⟩ where
  flagsOk := by intro c hc; cases hc
  noRepeat := List.nodup_nil
  width := trivial
  prec := trivial
  conv := h
  date := by rintro _ ⟨⟩
  notPercent h := absurd h h'

/-- If `BigInteger` supports what its documentation promises and no more, `%f` of `1E-2147483647` throws an
`ArithmeticException`, though the number rounds to zero, and so does `%d` of `1E+2147483647`. -/
theorem C97_witness (jdk : JdkEnv) (id : Identity) (v : Bool) (dates : DateSyntax) (env : DateEnv) :
    printf dates env (js! "%f")
      [Limited.toTraits ⟨promised, v⟩ jdk (.ref (.bigDecimal 1 2147483647 id))] = .error .arithmetic ∧
    halfUp (bigValue 1 2147483647) 6 = 0 ∧
    printf dates env (js! "%d")
      [Limited.toTraits ⟨promised, v⟩ jdk (.ref (.bigDecimal 1 (-2147483647) id))] = .error .arithmetic := by
  obtain ⟨s, hs⟩ : ∃ s : Int, s = 2147483647 := ⟨_, rfl⟩
  rw [← hs]
  refine ⟨?_, ?_, ?_⟩
  · refine (C97_f ⟨promised, v⟩ dates env jdk ⟨[], .absent, .absent, ch! 'f', none⟩
      (unadorned_ok (by decide) (by decide) dates) ⟨by simp, by simp⟩ (.inl rfl)
      1 s _ (.decimal 1 s id) one_lt_promised 1 ⟨js! "1", ?_, rfl⟩ []).1 ?_
    · unfold Shortest IsNumeral NoExtraZero; decide
    · show TooFine promised 1 s 6
      exact ⟨by omega, by omega, promised_le (by omega)⟩
  · unfold halfUp bigValue
    rw [Nat.floor_eq_zero, Nat.cast_one, one_mul, ← zpow_add₀ (by norm_num)]
    have : (10 : ℚ) ^ (-s + 6) ≤ 10 ^ (-1 : Int) := zpow_le_zpow_right₀ (by norm_num) (by omega)
    norm_num at this ⊢
    linarith
  · refine (C97_integer ⟨promised, v⟩ dates env jdk ⟨[], .absent, .absent, ch! 'd', none⟩
      (unadorned_ok (by decide) (by decide) dates) ⟨by simp, by simp⟩ (by decide) 1 (-s) id (by omega) []).1
      (.inr ⟨by omega, by omega, .inr ?_⟩)
    rw [show (1 : Int).natAbs = 1 from rfl, one_mul]
    exact promised_le (by omega)

-- numbers of everyday size are within reach
example : InReach promised (.ref (.bigDecimal (-1995) 2 Spec.someId)) :=
  C97_promised promised le_rfl (-1995) 2 _ 4 (by decide) (by decide)

/-- A JDK whose `BigInteger` ends at `10^20`: small enough to compute with. -/
def tinyBig : BigLimits := ⟨10 ^ 20, true⟩

def tinyArg (u scale : Int) : Traits := Limited.toTraits tinyBig sampleJdk (.ref (.bigDecimal u scale Spec.someId))

-- `%f` needs the power of ten that separates the scale from the precision, `%e` and `%g` do not
example : printf ⟨fun _ => true⟩ sampleDateEnv (js! "%f %e %g") [tinyArg 15 25, tinyArg 15 25, tinyArg 15 25] =
    .ok (js! "0.000000 1.500000e-24 1.5e-24") := rfl
example : printf ⟨fun _ => true⟩ sampleDateEnv (js! "%f") [tinyArg 15 26] = .error .arithmetic ∧
    printf ⟨fun _ => true⟩ sampleDateEnv (js! "%.7f") [tinyArg 15 26] = .ok (js! "0.0000000") ∧
    printf ⟨fun _ => true⟩ sampleDateEnv (js! "%e") [tinyArg 15 26] = .ok (js! "1.500000e-25") := ⟨rfl, rfl, rfl⟩
-- `%d` and `*` need the integer part; a zero needs no multiplication
example : printf ⟨fun _ => true⟩ sampleDateEnv (js! "%d") [tinyArg 15 (-19)] = .error .arithmetic ∧
    printf ⟨fun _ => true⟩ sampleDateEnv (js! "%d") [tinyArg 9 (-19)] = .ok (js! "90000000000000000000") ∧
    printf ⟨fun _ => true⟩ sampleDateEnv (js! "%d") [tinyArg 0 (-19)] = .ok (js! "0") ∧
    printf ⟨fun _ => true⟩ sampleDateEnv (js! "%*d") [tinyArg 15 (-19), tinyArg 1 0] = .error .arithmetic := by
  refine ⟨rfl, rfl, rfl, rfl⟩
-- the digits before the point are no trouble to `%f`: nothing is multiplied
example : printf ⟨fun _ => true⟩ sampleDateEnv (js! "%.1f") [tinyArg 15 (-22)] =
    .ok (js! "150000000000000000000000.0") := rfl

end FastPrintf
