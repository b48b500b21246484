/-
Properties of the integer conversions: C12 to C15.

They are about one directive without `*` (C09 reduces stars to written numbers, C05 composes directives)
applied to one argument of an integral type, handed over as a primitive, boxed, or as a `BigInteger`.
-/
import Verif.Proofs.Integers
import Verif.Props.Samples
import Verif.Props.Compile

namespace FastPrintf
open Spec DefaultAppender

theorem printf_d {dates : DateSyntax} (env : DateEnv) (jdk : JdkEnv) {d : Directive} (h : d.Ok dates)
    (hp : d.Plain) (hc : d.conv = ch! 'd' ∨ d.conv = ch! 'i') {x : Integral} {e : Entry}
    (hx : x.Given e) (rest : List Traits) :
    printf dates env d.text (e.toTraits jdk :: rest) =
      .ok (dText (flagSet d.flags) d.width.width d.prec.precision x.value) := by
  obtain ⟨f, hf, hm⟩ := hx.means jdk
  obtain ⟨r, h1, h2, h3⟩ := d_means hp.precOK hm
  have hs : formatterFor env (convOf d.conv) d.context (e.toTraits jdk) = .ok r := by
    have : convOf d.conv = .d := by rcases hc with hc | hc <;> rw [hc] <;> rfl
    rw [this]
    simp only [formatterFor, hf, bind_ok, h1]
  rw [printf_plain_ok h hp hs h2.sane, h3, hp.width_eq, hp.prec_eq]
  rfl

/-- **C12.** `%d` (and `%i`) prints what the C standard prescribes for the value, under every flag,
width and precision, except that zero printed with precision 0, flag space and no `+` and no width gives
nothing where C gives one space. -/
theorem C12_d_is_C (dates : DateSyntax) (env : DateEnv) (jdk : JdkEnv) (d : Directive) (h : d.Ok dates)
    (hp : d.Plain) (hc : d.conv = ch! 'd' ∨ d.conv = ch! 'i') (x : Integral) (e : Entry)
    (hx : x.Given e) (rest : List Traits) :
    ∃ out, printf dates env d.text (e.toTraits jdk :: rest) = .ok out ∧
      (CSigned (flagSet d.flags) d.width.width d.prec.precision x.value out ↔
        ¬ (x.value = 0 ∧ d.prec.precision = some 0 ∧ ch! ' ' ∈ d.flags ∧ ch! '+' ∉ d.flags ∧
          d.width.width = 0)) := by
  refine ⟨_, printf_d env jdk h hp hc hx rest, ?_⟩
  rw [dText_C]
  simp [flagSet]

/-- An integral argument for the examples: the `int` -42 as a primitive. -/
def sampleIntegral : Integral := .int (-42)

theorem sampleIntegral_given : sampleIntegral.Given (.prim (.int (-42))) := .prim rfl

/-- `%-+06.4d`-like directives for the examples. -/
def sampleD (fl : JStr) (w p : Num) (c : JChar) : Directive := ⟨fl, w, p, c, none⟩

theorem sampleD_ok : (sampleD (js! "+0") (.digits (js! "6")) .absent (ch! 'd')).Ok sampleDates :=
  ⟨by decide, by decide, ⟨by decide, by decide, by simp [IsDigit], by decide⟩, trivial, by decide,
    by intro p hp; exact absurd hp (by simp [sampleD]), by intro hc; exact absurd hc (by decide)⟩

-- the ordinary case
example : ∃ out, printf sampleDates sampleDateEnv (js! "%+06d") [intArg (-42)] = .ok out ∧
    CSigned { plus := true, zeroPad := true } 6 none (-42) out := by
  obtain ⟨out, h1, h2⟩ := C12_d_is_C sampleDates sampleDateEnv sampleJdk _ sampleD_ok
    ⟨by simp [sampleD], by simp [sampleD]⟩ (.inl rfl) sampleIntegral _ sampleIntegral_given []
  exact ⟨out, h1, h2.2 (by intro hc; exact absurd hc.2.1 (by decide))⟩
example : printf sampleDates sampleDateEnv (js! "%+06d") [intArg (-42)] = .ok (js! "-00042") := rfl
-- the exception
example : printf sampleDates sampleDateEnv (js! "[% .0d]") [intArg 0#32] = .ok (js! "[]") := rfl
example : CSigned { leadingSpace := true } 0 (some 0) 0 (js! " ") :=
  ⟨js! "0", by unfold Shortest IsNumeral NoExtraZero; decide, by decide⟩

/-- **C13.** Reading `%d` output back gives the value, except for the empty rendering of 0 at
precision 0; and without padding the digits have no superfluous leading zero. -/
theorem C13_d_reads_back (dates : DateSyntax) (env : DateEnv) (jdk : JdkEnv) (d : Directive)
    (h : d.Ok dates) (hp : d.Plain) (hc : d.conv = ch! 'd' ∨ d.conv = ch! 'i') (x : Integral)
    (e : Entry) (hx : x.Given e) (rest : List Traits) :
    ∃ out, printf dates env d.text (e.toTraits jdk :: rest) = .ok out ∧
      (¬ (x.value = 0 ∧ d.prec.precision = some 0) → readSigned out = x.value) ∧
      (d.width = .absent → d.prec = .absent → ∃ sg ds, out = sg ++ ds ∧
        sg ∈ [[], js! "-", js! "+", js! " "] ∧ NoExtraZero ds ∧ IsNumeral 10 ds) := by
  refine ⟨_, printf_d env jdk h hp hc hx rest, readSigned_dText _ _ _ _, ?_⟩
  intro hw hpr
  refine ⟨signText (flagSet d.flags) (x.value < 0), toRadix 10 x.value.natAbs, ?_, ?_,
    toRadix_minimal (by omega) _, toRadix_isNumeral (by omega) (by omega) _⟩
  · have hL := toRadix_length_pos 10 x.value.natAbs
    rw [hw, hpr]
    simp only [dText, Num.width, Num.precision, reduceCtorEq, and_false, if_false, withPrecision,
      Option.getD_none]
    have : 1 - (toRadix 10 x.value.natAbs).length = 0 := by omega
    rw [this]
    unfold field
    cases (flagSet d.flags).leftJustify <;> cases (flagSet d.flags).zeroPad <;> simp
  · unfold signText
    split_ifs <;> simp

-- the minimum values of every size
example : printf sampleDates sampleDateEnv (js! "%d") [(Entry.prim (.byte 128#8)).toTraits sampleJdk] =
    .ok (js! "-128") := rfl
example : printf sampleDates sampleDateEnv (js! "%d") [(Entry.prim (.int 0x80000000#32)).toTraits sampleJdk] =
    .ok (js! "-2147483648") := rfl
example : printf sampleDates sampleDateEnv (js! "%d")
    [(Entry.prim (.long 0x8000000000000000#64)).toTraits sampleJdk] = .ok (js! "-9223372036854775808") := rfl

theorem printf_u {dates : DateSyntax} (env : DateEnv) (jdk : JdkEnv) {d : Directive} (h : d.Ok dates)
    (hp : d.Plain) {c : UConv} (hc : d.conv = c.char) {x : Integral} {e : Entry}
    (hx : x.Given e) {n : Nat} (hn : x.unsigned = some n) (rest : List Traits) :
    printf dates env d.text (e.toTraits jdk :: rest) =
      .ok (uText c (flagSet d.flags) d.width.width d.prec.precision n) := by
  obtain ⟨f, hf, hm⟩ := hx.means jdk
  have hsg : f.signum = 0 ↔ n = 0 := by
    rw [hm.signum, signumOf_zero]; exact hm.zero n hn
  have hx := hm.hex
  have ho := hm.oct
  have hu := hm.uns
  rw [hn] at hx ho hu
  have : ∃ r, formatterFor env (convOf d.conv) d.context (e.toTraits jdk) = .ok r ∧ r.WF ∧
      r.text = uText c d.context.flags d.context.width.toNat (SeqFormatter.precOf d.context) n := by
    cases c with
    | u =>
      obtain ⟨r, h1, h2, h3⟩ := unsigned_means hp.precOK .u hsg hu
      refine ⟨r, ?_, h2, h3⟩
      rw [hc]
      simp only [formatterFor, UConv.char, convOf, hf, bind_ok]
      exact h1
    | o =>
      obtain ⟨r, h1, h2, h3⟩ := unsigned_means hp.precOK .o hsg ho
      refine ⟨r, ?_, h2, h3⟩
      rw [hc]
      simp only [formatterFor, UConv.char, convOf, hf, bind_ok]
      exact h1
    | x =>
      obtain ⟨r, h1, h2, h3⟩ := unsigned_means hp.precOK .x hsg hx
      refine ⟨r, ?_, h2, h3⟩
      rw [hc]
      simp only [formatterFor, UConv.char, convOf, hf, bind_ok]
      exact h1
  obtain ⟨r, h1, h2, h3⟩ := this
  rw [printf_plain_ok h hp h1 h2.sane, h3, hp.width_eq, hp.prec_eq]
  rfl

/-- The size of the type, for types of fixed size. -/
def Spec.Integral.bits : Integral → Option Nat
  | .byte _ => some 8
  | .short _ => some 16
  | .char _ => some 32
  | .int _ => some 32
  | .long _ => some 64
  | .bool _ => some 32
  | .big _ => none

/-- **C14.** `%u`, `%o`, `%x` print the two's complement reading: reading the digits back gives the
value modulo 2^bits, from which the value is recovered (as the representative nearest zero). -/
theorem C14_unsigned_reads_back (dates : DateSyntax) (env : DateEnv) (jdk : JdkEnv) (d : Directive)
    (h : d.Ok dates) (hp : d.Plain) (c : UConv) (hc : d.conv = c.char) (x : Integral)
    (e : Entry) (hx : x.Given e) (n : Nat) (hn : x.unsigned = some n) (rest : List Traits) :
    (∃ out, printf dates env d.text (e.toTraits jdk :: rest) = .ok out ∧
      (¬ (x.value = 0 ∧ d.prec.precision = some 0) → readUnsigned c.base out = n)) ∧
    (∀ b, x.bits = some b → (n : Int) = x.value % 2 ^ b ∧ (n : Int).bmod (2 ^ b) = x.value) ∧
    (x.bits = none → (n : Int) = x.value) := by
  obtain ⟨f, _, hm⟩ := hx.means jdk
  refine ⟨⟨_, printf_u env jdk h hp hc hx hn rest, ?_⟩, ?_, ?_⟩
  · intro h0
    rw [hm.zero n hn] at h0
    exact readUnsigned_uText c _ _ _ n h0
  · have fixed : ∀ {b : Nat} (v : BitVec b), n = (v.toInt % 2 ^ b).toNat →
        (n : Int) = v.toInt % 2 ^ b ∧ (n : Int).bmod (2 ^ b) = v.toInt := by
      intro b v hv
      have h1 : (0 : Int) ≤ v.toInt % 2 ^ b := Int.emod_nonneg _ (by positivity)
      refine ⟨by omega, ?_⟩
      rw [hv, toInt_emod, BitVec.toInt_eq_toNat_bmod]
    intro b hb
    cases x with
    | byte v =>
      simp only [Integral.bits, Integral.unsigned, Option.some.injEq] at hb hn
      subst hb; exact fixed v hn.symm
    | short v =>
      simp only [Integral.bits, Integral.unsigned, Option.some.injEq] at hb hn
      subst hb; exact fixed v hn.symm
    | int v =>
      simp only [Integral.bits, Integral.unsigned, Option.some.injEq] at hb hn
      subst hb; exact fixed v hn.symm
    | long v =>
      simp only [Integral.bits, Integral.unsigned, Option.some.injEq] at hb hn
      subst hb; exact fixed v hn.symm
    | char v =>
      simp only [Integral.bits, Integral.unsigned, Option.some.injEq] at hb hn
      subst hb hn
      have := v.isLt
      simp only [Integral.value]
      rw [Int.bmod_eq_of_le (by omega) (by omega)]
      omega
    | bool v =>
      simp only [Integral.bits, Integral.unsigned, Option.some.injEq] at hb hn
      subst hb hn
      cases v <;> decide
    | big v => cases hb
  · intro hb
    cases x <;> simp only [Integral.bits, reduceCtorEq] at hb
    rename_i v
    simp only [Integral.unsigned] at hn
    split_ifs at hn with hneg
    simp only [Option.some.injEq] at hn
    simp only [Integral.value]
    omega

/-- **C14 (negative BigInteger).** There is no unsigned reading: `PrintfException`. -/
theorem C14_negative_big_rejected (dates : DateSyntax) (env : DateEnv) (jdk : JdkEnv) (d : Directive)
    (h : d.Ok dates) (hp : d.Plain) (c : UConv) (hc : d.conv = c.char) (v : Int) (hv : v < 0)
    (id : Identity) (rest : List Traits) :
    printf dates env d.text ((Entry.ref (.bigInteger v id)).toTraits jdk :: rest) =
      .error (.printf (.wrongType .negativeUnsigned)) := by
  obtain ⟨f, hf, hm⟩ := (Integral.Given.big v id).means jdk
  have hn : (Integral.big v).unsigned = none := by simp [Integral.unsigned, hv]
  have hsg : ¬ (f.signum = 0 ∧ d.context.precision = 0) := by
    rw [hm.signum, signumOf_zero]
    simp only [Integral.value]
    omega
  have hx := hm.hex
  have ho := hm.oct
  have hu := hm.uns
  rw [hn] at hx ho hu
  rw [printf_plain h hp, hc]
  cases c with
  | u =>
    simp only [formatterFor, UConv.char, convOf, hf, bind_ok, SeqFormatter.u]
    rw [SeqFormatter.unsigned_err hu _ hsg]; rfl
  | o =>
    simp only [formatterFor, UConv.char, convOf, hf, bind_ok, SeqFormatter.o]
    rw [SeqFormatter.unsigned_err ho _ hsg]; rfl
  | x =>
    simp only [formatterFor, UConv.char, convOf, hf, bind_ok, SeqFormatter.x]
    rw [SeqFormatter.unsigned_err hx _ hsg]; rfl

example : printf sampleDates sampleDateEnv (js! "%x") [(Entry.prim (.byte 255#8)).toTraits sampleJdk] =
    .ok (js! "ff") := rfl
example : printf sampleDates sampleDateEnv (js! "%u") [intArg (-1)] = .ok (js! "4294967295") := rfl
example : (Integral.int (-1)).unsigned = some 4294967295 := by decide

/-- **C15.** `%u`, `%o`, `%x` print what the C standard prescribes, under every flag, width and
precision, except for zero with `#`: `%#o` with precision 0 or at least 2, and `%#o`/`%#x` with the `0`
flag in force (no precision, no `-`) and a width of at least 2.  In these cases the output differs. -/
theorem C15_unsigned_is_C (dates : DateSyntax) (env : DateEnv) (jdk : JdkEnv) (d : Directive)
    (h : d.Ok dates) (hp : d.Plain) (c : UConv) (hc : d.conv = c.char) (x : Integral)
    (e : Entry) (hx : x.Given e) (n : Nat) (hn : x.unsigned = some n) (rest : List Traits) :
    ∃ out, printf dates env d.text (e.toTraits jdk :: rest) = .ok out ∧
      (CUnsigned c (flagSet d.flags) d.width.width d.prec.precision n out ↔
        ¬ (x.value = 0 ∧ ch! '#' ∈ d.flags ∧
          ((c = .o ∧ (d.prec.precision = some 0 ∨ ∃ p, d.prec.precision = some p ∧ 2 ≤ p)) ∨
           (c ≠ .u ∧ d.prec.precision = none ∧ ch! '0' ∈ d.flags ∧ ch! '-' ∉ d.flags ∧
            2 ≤ d.width.width)))) := by
  obtain ⟨f, _, hm⟩ := hx.means jdk
  refine ⟨_, printf_u env jdk h hp hc hx hn rest, ?_⟩
  rw [uText_C, hm.zero n hn]
  simp only [zeroDeviation, flagSet]
  simp

-- the deviations, as printed
example : printf sampleDates sampleDateEnv (js! "%#08x") [intArg 0#32] = .ok (js! "  000000") := rfl
example : printf sampleDates sampleDateEnv (js! "%#.3o") [intArg 0#32] = .ok (js! "00") := rfl
example : printf sampleDates sampleDateEnv (js! "%#.0o") [intArg 0#32] = .ok [] := rfl
-- and the ordinary cases
example : printf sampleDates sampleDateEnv (js! "%#08x") [intArg 255#32] = .ok (js! "0x0000ff") := rfl
example : printf sampleDates sampleDateEnv (js! "%#.3o") [intArg 8#32] = .ok (js! "010") := rfl

end FastPrintf
