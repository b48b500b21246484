/-
C113: objects of a subclass of `BigDecimal`.
-/
import Verif.Proofs.OwnDecCalls

namespace FastPrintf
open Spec

variable {σ : Type}

namespace OwnDec
open OwnForms

theorem six_range {ctx : FormatContext} (h : 0 ≤ ctx.precision ∨ ctx.precision = UNSET) :
    0 ≤ SeqFormatter.precision6 ctx := by
  rw [six_eq]
  unfold askedPrecision
  unfold UNSET at h
  split_ifs <;> omega

theorem general_range {ctx : FormatContext} (h : 0 ≤ ctx.precision ∨ ctx.precision = UNSET)
    (h' : ctx.precision ≤ 2147483647) : 1 ≤ SeqFormatter.gPrecision ctx ∧ SeqFormatter.gPrecision ctx ≤ 2147483647 := by
  rw [general_eq]
  unfold askedPrecision
  unfold UNSET at h
  split_ifs <;> omega

theorem gives_text {v : Dec σ} {str : JStr} (h : AlwaysGives v.toString (.ok (some str))) {ref : RefSlot}
    {ctx : FormatContext} {t : Traits} (ht : t.asSeq = .ok (Seq.wrap str)) :
    AlwaysGives (OwnForms.s ctx (traits v ref)) (SeqFormatter.s ctx t) := by
  intro s
  have e : OwnForms.s ctx (traits v ref) s = (v.toString >>= fun x => nonNull x >>= fun x => .of
      (if ctx.isPrecisionSet && ctx.precision < (Seq.wrap x).length then do
        SeqFormatter.spaceJustify ctx (← (Seq.wrap x).subSequence 0 ctx.precision)
      else SeqFormatter.spaceJustify ctx (Seq.wrap x)) : Effect σ Seq) s := by
    unfold OwnForms.s traits minimal
    simp only [bind_at]
    rcases v.toString s with ⟨_ | _ | _, s'⟩ <;> rfl
  rw [e]
  unfold SeqFormatter.s
  rw [ht, bind_ok]
  exact gives_then h (fun _ => rfl) s

theorem gives_char {v : Dec σ} {n : Int} (h : AlwaysGives v.intValue (.ok n)) {ref : RefSlot}
    {ctx : FormatContext} {t : Traits} (ht : t.asChar = .ok (toChar n)) :
    AlwaysGives (OwnForms.c ctx (traits v ref)) (SeqFormatter.c ctx t) := by
  intro s
  have e : OwnForms.c ctx (traits v ref) s = (v.intValue >>= fun x => .of
      (SeqFormatter.spaceJustify ctx (Seq.ch (toChar x))) : Effect σ Seq) s := by
    unfold OwnForms.c traits minimal
    simp only [bind_at]
    rcases v.intValue s with ⟨_ | _, s'⟩ <;> rfl
  rw [e]
  unfold SeqFormatter.c
  rw [ht, bind_ok]
  exact gives_then h (gives_of (SeqFormatter.spaceJustify ctx (Seq.ch (toChar n)))) s

theorem shows_f {v : Dec σ} {u sc k : Int} {str : JStr} (h : DecLike v u sc k str) {n : Nat}
    (hn : DigitCount u.natAbs n) (hn' : (n : Int) ≤ 2147483647) {ctx : FormatContext}
    (hp : 0 ≤ SeqFormatter.precision6 ctx) (ref : RefSlot) :
    AlwaysGives (onFloat (traits v ref) (OwnForms.f ctx)) (SeqFormatter.f ctx (signedForm u sc k)) := by
  refine gives_wrapper h fun kept hk => ?_
  have e : (signedForm u sc k).decimalLayout = BigDecimalWrapper.decimalLayout ⟨u.natAbs, sc⟩ := rfl
  have hL := gives_kept (k := kept) (layout := (OwnDec.decimalLayout · (SeqFormatter.precision6 ctx))) (gives_decimal hk hn hn' (p := SeqFormatter.precision6 ctx) (by omega))
  refine gives_f (x := signedForm u sc k) (value := some kept) (k := k) rfl rfl rfl ?_
  rw [e]
  exact hL

theorem shows_e {v : Dec σ} {u sc k : Int} {str : JStr} (h : DecLike v u sc k str) {n : Nat}
    (hn : DigitCount u.natAbs n) (hn' : (n : Int) ≤ 2147483647) {ctx : FormatContext}
    (hp : 0 ≤ SeqFormatter.precision6 ctx) (ref : RefSlot) :
    AlwaysGives (onFloat (traits v ref) (OwnForms.e ctx)) (SeqFormatter.e ctx (signedForm u sc k)) := by
  refine gives_wrapper h fun kept hk => ?_
  have e : (signedForm u sc k).scientificLayout = BigDecimalWrapper.scientificLayout ⟨u.natAbs, sc⟩ := rfl
  have hL := gives_kept (k := kept) (layout := (OwnDec.scientificLayout · (SeqFormatter.precision6 ctx))) (gives_scientific hk hn hn' (p := SeqFormatter.precision6 ctx) (by omega))
  refine gives_e (x := signedForm u sc k) (value := some kept) (k := k) rfl rfl rfl ?_
  rw [e]
  exact hL

theorem shows_g {v : Dec σ} {u sc k : Int} {str : JStr} (h : DecLike v u sc k str) {n : Nat}
    (hn : DigitCount u.natAbs n) (hn' : (n : Int) ≤ 2147483647) {ctx : FormatContext}
    (hp : 1 ≤ SeqFormatter.gPrecision ctx) (hp' : SeqFormatter.gPrecision ctx ≤ 2147483647) (ref : RefSlot) :
    AlwaysGives (onFloat (traits v ref) (OwnForms.g ctx)) (SeqFormatter.g ctx (signedForm u sc k)) := by
  refine gives_wrapper h fun kept hk => ?_
  have e : (signedForm u sc k).generalLayout = BigDecimalWrapper.generalLayout ⟨u.natAbs, sc⟩ := rfl
  have hL := gives_kept (k := kept) (layout := (OwnDec.generalLayout · (SeqFormatter.gPrecision ctx))) (gives_general hk hn hn' (p := SeqFormatter.gPrecision ctx) (by omega) hp')
  refine gives_g (x := signedForm u sc k) (value := some kept) (k := k) rfl rfl rfl ?_
  rw [e]
  exact hL

theorem shows_a {v : Dec σ} {u sc k : Int} {str : JStr} (h : DecLike v u sc k str) (ref : RefSlot) (ctx : FormatContext) :
    AlwaysGives (onFloat (traits v ref) (OwnForms.a ctx)) (SeqFormatter.a ctx (signedForm u sc k)) := by
  have e : SeqFormatter.a ctx (signedForm u sc k) = .error (.printf (.wrongType .bigDecimalHex)) := rfl
  rw [e]
  exact gives_wrapper h fun kept _ => gives_a

end OwnDec

open OwnDec in
/-- C113: an object whose methods answer as those of a `BigDecimal` do is printed as that number, except that the sign of
the floating-point conversions is the one that `signum()` tells, and the text of `%s` is that of `toString()`.  What the
methods do besides answering does not matter. -/
theorem C113_like (env : DateEnv) (jdk : JdkEnv) (sp : Specifier) (ctx : FormatContext) (v : OwnDec.Dec σ)
    (u sc k : Int) (str : JStr) (h : DecLike v u sc k str) (n : Nat) (hn : DigitCount u.natAbs n) (hn' : n ≤ 2147483647)
    (hp : 0 ≤ ctx.precision ∨ ctx.precision = UNSET) (hp' : ctx.precision ≤ 2147483647) (ref : RefSlot) (s : σ) :
    (OwnForms.formatterFor env sp ctx (OwnDec.traits v ref) s).1 =
      DefaultAppender.formatterFor env sp ctx (signedAs (bigDecimalTraits jdk u sc ref) k str) := by
  have hn'' : (n : Int) ≤ 2147483647 := by omega
  have h6 := six_range hp
  have hG := general_range hp hp'
  have hf := shows_f h hn hn'' h6 ref
  have he := shows_e h hn hn'' h6 ref
  have hg := shows_g h hn hn'' hG.1 hG.2 ref
  have ha := shows_a h ref ctx
  have hs : AlwaysGives (OwnForms.s ctx (traits v ref)) (SeqFormatter.s ctx (signedAs (bigDecimalTraits jdk u sc ref) k str)) :=
    gives_text h.text rfl
  have hi := h.integer
  rw [← bigDecimalTruncate_eq] at hi
  obtain ⟨i, i1, i2⟩ := h.int
  rw [← bigDecimalTruncate_eq] at i1
  have hc : AlwaysGives (OwnForms.c ctx (traits v ref)) (SeqFormatter.c ctx (signedAs (bigDecimalTraits jdk u sc ref) k str)) :=
    gives_char i2 (by rw [← i1.eq]; rfl)
  have hx : AlwaysGives (OwnForms.onInt (traits v ref) (OwnForms.x ctx))
      (SeqFormatter.x ctx (IntForm.ofBigInteger (bigDecimalTruncate u sc))) :=
    gives_integer hi (OwnForms.unsigned_eq ctx _ _ _)
  cases sp
  case d => exact gives_integer hi (OwnForms.d_eq ctx _) s
  case u => exact gives_integer hi (OwnForms.unsigned_eq ctx _ _ _) s
  case o => exact gives_integer hi (OwnForms.unsigned_eq ctx _ _ _) s
  case x => exact hx s
  case upperX => exact gives_upper hx s
  case f => exact hf s
  case upperF => exact gives_upper hf s
  case e => exact he s
  case upperE => exact gives_upper he s
  case g => exact hg s
  case upperG => exact gives_upper hg s
  case a => exact ha s
  case upperA => exact gives_upper ha s
  case s => exact hs s
  case upperS => exact gives_upper hs s
  case c => exact hc s
  case p => cases ref <;> rfl
  all_goals rfl

/-- C113: so an object that answers in every respect as a `BigDecimal` does is printed as that number. -/
theorem C113_same (env : DateEnv) (jdk : JdkEnv) (sp : Specifier) (ctx : FormatContext) (v : OwnDec.Dec σ)
    (u sc : Int) (h : DecLike v u sc u.sign (jdk.bigDecimalToString u sc)) (n : Nat) (hn : DigitCount u.natAbs n)
    (hn' : n ≤ 2147483647) (hp : 0 ≤ ctx.precision ∨ ctx.precision = UNSET) (hp' : ctx.precision ≤ 2147483647)
    (ref : RefSlot) (s : σ) :
    (OwnForms.formatterFor env sp ctx (OwnDec.traits v ref) s).1 =
      DefaultAppender.formatterFor env sp ctx (bigDecimalTraits jdk u sc ref) := by
  have e : signedAs (bigDecimalTraits jdk u sc ref) u.sign (jdk.bigDecimalToString u sc) =
      bigDecimalTraits jdk u sc ref := by
    rw [OwnBig.sign_eq]
    rfl
  rw [C113_like env jdk sp ctx v u sc _ _ h n hn hn' hp hp', e]

/-- C113: overriding `toString()` alone changes what `%s` and `%S` print, and nothing else. -/
theorem C113_toString (env : DateEnv) (sp : Specifier) (ctx : FormatContext) (v : OwnDec.Dec σ)
    (text : Effect σ (Option JStr)) (ref : RefSlot) (h : sp ≠ .s ∧ sp ≠ .upperS) :
    OwnForms.formatterFor env sp ctx (OwnDec.traits { v with toString := text } ref) =
      OwnForms.formatterFor env sp ctx (OwnDec.traits v ref) := by
  cases sp <;> first | rfl | exact absurd rfl h.1 | exact absurd rfl h.2

/-- C113: `%a` and `%A` refuse every such object once `abs()` and `signum()` have returned, whatever they returned, and
whatever its methods do. -/
theorem C113_hex (env : DateEnv) (sp : Specifier) (ctx : FormatContext) (v : OwnDec.Dec σ) (ref : RefSlot)
    (h : sp = .a ∨ sp = .upperA) (kept : Option (OwnDec.Kept σ)) (ha : AlwaysGives v.abs (.ok kept)) (k : Int)
    (hk : AlwaysGives v.signum (.ok k)) (s : σ) :
    (OwnForms.formatterFor env sp ctx (OwnDec.traits v ref) s).1 = .error (.printf (.wrongType .bigDecimalHex)) := by
  have hw : AlwaysGives (OwnForms.onFloat (OwnDec.traits v ref) (OwnForms.a ctx))
      (.error (.printf (.wrongType .bigDecimalHex))) := by
    intro s
    have e : OwnForms.onFloat (OwnDec.traits v ref) (OwnForms.a ctx) s =
        (v.abs >>= fun value => v.signum >>= fun k => OwnForms.a ctx (OwnDec.form value k)) s := by
      unfold OwnForms.onFloat OwnDec.traits OwnForms.minimal OwnDec.wrapper
      simp only [OwnForms.bind_at]
      rcases v.abs s with ⟨_ | _, s'⟩
      · rfl
      · dsimp only
        rcases v.signum s' with ⟨_ | _, s''⟩ <;> rfl
    rw [e]
    exact OwnDec.gives_then ha (OwnDec.gives_then hk OwnDec.gives_a) s
  rcases h with rfl | rfl
  · exact hw s
  · exact OwnDec.gives_upper hw s

namespace OwnDec
open OwnForms

theorem ends (env : DateEnv) (sp : Specifier) (ctx : FormatContext) (v : DecTold)
    (hp : 0 ≤ ctx.precision ∨ ctx.precision = UNSET) (hp' : ctx.precision ≤ 2147483646) (ref : RefSlot) :
    Ends v.throws (formatterFor env sp ctx (traits v.noted ref)) (decAsked sp ctx.precision v) := by
  have h6 := six_range hp
  have hG := general_range hp (by omega)
  have h6' : SeqFormatter.precision6 ctx ≤ 2147483646 := by
    rw [six_eq]
    unfold askedPrecision
    split_ifs <;> omega
  have hf := ends_f (v := v) (ref := ref) (ctx := ctx)
  have he := ends_e (v := v) (ref := ref) h6 h6'
  have hg := ends_g (v := v) (ref := ref) hG.1 hG.2
  rw [six_eq] at hf he
  rw [general_eq] at hg
  have hx : Ends v.throws (onInt (traits v.noted ref) (OwnForms.x ctx)) [.toBigInteger] :=
    ends_integer fun _ => unsigned_eq ctx _ _ _
  cases sp
  case d => exact ends_integer fun _ => d_eq ctx _
  case u => exact ends_integer fun _ => unsigned_eq ctx _ _ _
  case o => exact ends_integer fun _ => unsigned_eq ctx _ _ _
  case x => exact hx
  case upperX => exact ends_upper hx
  case f => exact hf
  case upperF => exact ends_upper hf
  case e => exact he
  case upperE => exact ends_upper he
  case g => exact hg
  case upperG => exact ends_upper hg
  case a => exact ends_a
  case upperA => exact ends_upper ends_a
  case s => exact ends_s
  case upperS => exact ends_upper ends_s
  case c => exact ends_c
  case p => cases ref <;> exact ends_of _
  case t => exact ends_of (.error (.printf (.wrongType .noTemporal)))
  case upperT => exact ends_of (.error (.printf (.wrongType .noTemporal)))
  case percent => exact ends_of _
  case n => exact ends_of _

end OwnDec

/-- C113: which methods a directive calls, of the argument, of what `abs()` gave and of what `setScale` gave, and in which
order, for an object that answers each method the same way every time: with a value, with `null` or with an exception. -/
theorem C113_calls (env : DateEnv) (sp : Specifier) (ctx : FormatContext) (v : DecTold)
    (hp : 0 ≤ ctx.precision ∨ ctx.precision = UNSET) (hp' : ctx.precision ≤ 2147483646) (ref : RefSlot)
    (log : List DecAsked) :
    (OwnForms.formatterFor env sp ctx (OwnDec.traits v.noted ref) log).2 = log ++ decAsked sp ctx.precision v := by
  obtain ⟨r, h, -⟩ := OwnDec.ends env sp ctx v hp hp' ref
  rw [h]

/-- C113: an exception that one of these calls throws is what comes out of the directive. -/
theorem C113_throws (env : DateEnv) (sp : Specifier) (ctx : FormatContext) (v : DecTold)
    (hp : 0 ≤ ctx.precision ∨ ctx.precision = UNSET) (hp' : ctx.precision ≤ 2147483646) (ref : RefSlot)
    (log : List DecAsked) (c : DecAsked) (hc : c ∈ decAsked sp ctx.precision v) (e : Err) (he : v.throws c = some e) :
    (OwnForms.formatterFor env sp ctx (OwnDec.traits v.noted ref) log).1 = .error e := by
  obtain ⟨r, h, h2⟩ := OwnDec.ends env sp ctx v hp hp' ref
  rw [h, h2 c hc e he]

/-- C113: as a width or precision it is asked `intValue()` and nothing else. -/
theorem C113_star (sp : Specifier) (v : DecTold) (ref : RefSlot) (rest : List (OwnForms.Arg (List DecAsked)))
    (log : List DecAsked) :
    OwnForms.nextInt sp (OwnDec.traits v.noted ref :: rest) log = (v.int.map fun n => (n, rest), log ++ [.intValue]) := by
  rcases v with ⟨integer, abs, signum, text, int⟩
  rcases int with e | n <;> rfl

/-! Non-vacuity. -/

namespace OwnDec

/-- The object that `abs()` of a plain `BigDecimal` gives. -/
def plainKept (u : Nat) (sc : Int) : DecKeptTold where
  unscaled := .ok (some u)
  scale := .ok sc
  precision := .ok (toRadix 10 u).length
  setScale n := .ok (some ⟨.ok (some (BigDec.divHalfUp u (sc - n).toNat)), .ok n⟩)
  zero := .ok (decide (u = 0 ∧ sc = 0))
  compare n := .ok (if BigDec.geTenPow ⟨u, sc⟩ (-n) then 1 else -1)
  text := .error .external

/-- A `BigDecimal` whose `signum()` and `toString()` are overridden. -/
def plainDec (u sc sign : Int) (text : JStr) : DecTold where
  integer := .ok (some (bigDecimalTruncate u sc))
  abs := .ok (some (plainKept u.natAbs sc))
  signum := .ok sign
  text := .ok (some text)
  int := .ok (wrap32 (bigDecimalTruncate u sc))

theorem plain_like (u sc sign : Int) (text : JStr) : DecLike (plainDec u sc sign text).noted u sc sign text where
  abs := by
    refine ⟨(plainKept u.natAbs sc).noted, fun _ => rfl, fun _ => rfl, fun _ => rfl,
      ⟨_, ⟨_, shortest_toRadix (by omega) (by omega) u.natAbs, rfl⟩, fun _ => rfl⟩, fun n hn => ⟨_, fun _ => rfl, fun _ => ?_, fun _ => rfl⟩,
      fun _ => rfl, fun n => ⟨_, fun _ => rfl, ?_⟩⟩
    · rw [scaled_eq hn]
      rfl
    · rw [← ge_eq]
      by_cases h : BigDec.geTenPow ⟨u.natAbs, sc⟩ (-n) = true
      · rw [if_pos h]; simp [h]
      · rw [if_neg h]; simp [h]
  signum := fun _ => rfl
  integer := by rw [← bigDecimalTruncate_eq]; exact fun _ => rfl
  int := ⟨_, by rw [← bigDecimalTruncate_eq]; exact wrap32_narrows _, fun _ => rfl⟩
  text := fun _ => rfl

/-- What a directive prints for an object, and the calls. -/
def decNotedBy (sp : Specifier) (precision : Int) (v : DecTold) : Res JStr × List DecAsked :=
  let q := OwnForms.formatterFor sampleDateEnv sp ⟨{}, UNSET, precision, none⟩ (traits v.noted .null) []
  (q.1.map Seq.text, q.2)

-- 12.345, by its methods
example : decNotedBy .f 2 (plainDec (-12345) 3 (-1) []) =
    (.ok (js! "-12.35"), [.abs, .signum, .scale, .precision, .unscaledValue]) := by decide +kernel
example : decNotedBy .f UNSET (plainDec (-12345) 3 (-1) []) =
    (.ok (js! "-12.345000"), [.abs, .signum, .scale, .unscaledValue, .scale]) := by decide +kernel
example : decNotedBy .f 2 (plainDec 5 3 1 []) =
    (.ok (js! "0.01"), [.abs, .signum, .scale, .precision, .setScale 2, .scaledUnscaledValue 2, .scaledScale 2]) := by
  decide +kernel
example : decNotedBy .upperE 1 (plainDec 12345 3 1 []) =
    (.ok (js! "1.2E+01"), [.abs, .signum, .scale, .precision, .unscaledValue]) := by decide +kernel
example : decNotedBy .g 3 (plainDec 12345 3 1 []) =
    (.ok (js! "12.3"), [.abs, .signum, .equalsZero, .compareTo 4, .compareTo (-3), .scale, .unscaledValue, .scale,
      .precision, .unscaledValue]) := by decide +kernel
example : decNotedBy .g 1 (plainDec 12345 3 1 []) =
    (.ok (js! "1e+01"), [.abs, .signum, .equalsZero, .compareTo 4, .compareTo (-1), .scale, .precision, .unscaledValue]) := by
  decide +kernel
example : decNotedBy .d UNSET (plainDec (-12345) 3 1 []) = (.ok (js! "-12"), [.toBigInteger]) := by decide +kernel
example : decNotedBy .c UNSET (plainDec 65601 0 1 []) = (.ok (js! "A"), [.intValue]) := by decide +kernel
example : decNotedBy .t UNSET (plainDec 1 0 1 []) = (.error (.printf (.wrongType .noTemporal)), []) := by decide +kernel
-- the sign is that of `signum()`, even for zero and for the digits of a positive number; `%d` does not ask
example : (decNotedBy .f 1 (plainDec 0 0 (-1) [])).1 = .ok (js! "-0.0") := by decide +kernel
example : (decNotedBy .e 1 (plainDec (-5) 0 1 [])).1 = .ok (js! "5.0e+00") := by decide +kernel
example : (decNotedBy .d UNSET (plainDec (-5) 0 1 [])).1 = .ok (js! "-5") := by decide +kernel
-- `toString()` is for `%s` only, even when it throws
example : (decNotedBy .s UNSET (plainDec 1234 0 1 (js! "1,234"))).1 = .ok (js! "1,234") := by decide +kernel
example : (decNotedBy .f 0 { plainDec 1234 0 1 [] with text := .error .external }).1 = .ok (js! "1234") := by decide +kernel
example : (decNotedBy .s 0 { plainDec 1234 0 1 [] with text := .ok none }).1 = .error .nullPointer := by decide +kernel
-- `%a`: refused, though the text for the message cannot be had
example : decNotedBy .a UNSET (plainDec 1 0 1 []) =
    (.error (.printf (.wrongType .bigDecimalHex)), [.abs, .signum, .keptToString]) := by decide +kernel
example : decNotedBy .a UNSET { plainDec 1 0 1 [] with abs := .ok none } =
    (.error (.printf (.wrongType .bigDecimalHex)), [.abs, .signum]) := by decide +kernel
-- `abs()` returns null, or the object itself although it is negative
example : decNotedBy .f UNSET { plainDec 1 0 1 [] with abs := .ok none } = (.error .nullPointer, [.abs, .signum]) := by
  decide +kernel
example : (decNotedBy .f 1 { plainDec (-5) 0 (-1) [] with
    abs := .ok (some { plainKept 5 0 with unscaled := .ok (some (-5)) }) }).1 = .ok (js! "--5.0") := by decide +kernel
-- a precision of -3 digits: the digits are not asked for under `%e`; under `%f` they are, before the exception
example : decNotedBy .e UNSET { plainDec 12 1 1 [] with
    abs := .ok (some { plainKept 12 1 with precision := .ok (-3) }) } =
    (.error .illegalArgument, [.abs, .signum, .scale, .precision]) := by decide +kernel
example : decNotedBy .f 0 { plainDec 12 (-5) 1 [] with
    abs := .ok (some { plainKept 12 1 with scale := .ok 7, precision := .ok 9, unscaled := .error .external }) } =
    (.error .external, [.abs, .signum, .scale, .precision, .unscaledValue]) := by decide +kernel
-- C113_throws
example : decNotedBy .f 2 { plainDec 5 3 1 [] with
    abs := .ok (some { plainKept 5 3 with setScale := fun _ => .ok (some ⟨.ok (some 1), .error .arithmetic⟩) }) } =
    (.error .arithmetic, [.abs, .signum, .scale, .precision, .setScale 2, .scaledUnscaledValue 2, .scaledScale 2]) := by
  decide +kernel
example : decNotedBy .g UNSET { plainDec 5 3 1 [] with
    abs := .ok (some { plainKept 5 3 with compare := fun _ => .error .classCast }) } =
    (.error .classCast, [.abs, .signum, .equalsZero, .compareTo 4]) := by decide +kernel

end OwnDec

-- C113_like: for every number there are such objects
example (u sc sign : Int) (text : JStr) : ∃ v : OwnDec.Dec (List DecAsked), DecLike v u sc sign text :=
  ⟨_, OwnDec.plain_like u sc sign text⟩

end FastPrintf
