/-
C110: objects of a subclass of `BigInteger`.
-/
import Verif.Spec.OwnBig
import Verif.Props.OwnForms

namespace FastPrintf
open Spec

namespace OwnBig

/-- The result and the calls made, whatever was noted before. -/
def Does {α : Type} (x : Effect (List BigAsked) α) (r : Res α) (calls : List BigAsked) : Prop :=
  ∀ log, x log = (r, log ++ calls)

theorem does_of {α : Type} (r : Res α) : Does (.of r) r [] := fun log => by rw [List.append_nil]; rfl

theorem does_noting {α : Type} (c : BigAsked) (r : Res α) : Does (bigNoting c r) r [c] := fun _ => rfl

theorem does_bind {α β : Type} {x : Effect (List BigAsked) α} {a : α} {cs ds : List BigAsked}
    {f : α → Effect (List BigAsked) β} {r : Res β} (hx : Does x (.ok a) cs) (hf : Does (f a) r ds) :
    Does (x >>= f) r (cs ++ ds) := by
  intro log
  rw [OwnForms.bind_at, hx log]
  show f a (log ++ cs) = _
  rw [hf, List.append_assoc]

theorem does_error {α β : Type} {x : Effect (List BigAsked) α} {e : Err} {cs : List BigAsked}
    {f : α → Effect (List BigAsked) β} (hx : Does x (.error e) cs) : Does (x >>= f) (.error e) cs := by
  intro log
  rw [OwnForms.bind_at, hx log]

/-- A question, and then only computation. -/
theorem does_map {α β : Type} {x : Effect (List BigAsked) α} {r : Res α} {cs : List BigAsked} (hx : Does x r cs)
    (k : α → Res β) : Does (x >>= fun a => .of (k a)) (r >>= k) cs := by
  cases r with
  | error e => exact does_error hx
  | ok a => have := does_bind hx (f := fun a => .of (k a)) (does_of (k a)); rwa [List.append_nil] at this

theorem does_upper {x : Effect (List BigAsked) Seq} {r : Res Seq} {cs : List BigAsked} (hx : Does x r cs) :
    Does (OwnForms.upper x) (r >>= Seq.upperCase) cs := does_map hx _

/-- A text that is needed. -/
theorem does_needed {β : Type} {x : Effect (List BigAsked) (Option JStr)} {r : Res (Option JStr)} {cs : List BigAsked}
    (hx : Does x r cs) (k : JStr → Res β) :
    Does (x >>= fun t => OwnForms.nonNull t >>= fun t => .of (k t)) (needed r >>= k) cs := by
  rcases r with e | _ | t
  · exact does_error hx
  · have := does_bind hx (f := fun t => OwnForms.nonNull t >>= fun t => .of (k t)) (r := .error .nullPointer) (ds := [])
      (fun log => by rw [List.append_nil]; rfl)
    rwa [List.append_nil] at this
  · have := does_bind hx (f := fun t => OwnForms.nonNull t >>= fun t => .of (k t)) (r := k t) (ds := [])
      (fun log => by rw [List.append_nil]; rfl)
    rwa [List.append_nil] at this

/-- What the field `value` is asked for. -/
def keptCalls (kept : Option KeptTold) (c : BigAsked) : List BigAsked :=
  match kept with
  | some _ => [c]
  | none => []

theorem does_kept {β : Type} {kept : Option KeptTold} {ask : Kept (List BigAsked) → Effect (List BigAsked) (Option JStr)}
    {given : KeptTold → Res (Option JStr)} {c : BigAsked}
    (ha : ∀ v : KeptTold, ask v.noted = bigNoting c (given v)) (k : JStr → Res β) :
    Does (onKept (kept.map KeptTold.noted) ask >>= fun t => OwnForms.nonNull t >>= fun t => .of (k t))
      (ofKept kept given >>= k) (keptCalls kept c) := by
  cases kept with
  | none => intro log; rw [keptCalls, List.append_nil]; rfl
  | some v =>
    have e : onKept ((some v).map KeptTold.noted) ask = bigNoting c (given v) := by
      rw [← ha]; rfl
    rw [e]
    exact does_needed (does_noting c (given v)) k

theorem does_quoted (kept : Option KeptTold) :
    Does (quoted (kept.map KeptTold.noted)) (.ok ()) (keptCalls kept .keptToString) := by
  cases kept with
  | none => intro log; rw [keptCalls, List.append_nil]; rfl
  | some v => intro log; rfl

theorem does_nonNegative {β : Type} {kept : Option KeptTold}
    {ask : Kept (List BigAsked) → Effect (List BigAsked) (Option JStr)}
    {given : KeptTold → Res (Option JStr)} {c : BigAsked} {signum : Int}
    (ha : ∀ v : KeptTold, ask v.noted = bigNoting c (given v)) (k : JStr → Res β) :
    Does (nonNegative (kept.map KeptTold.noted) signum ask >>= fun t => OwnForms.nonNull t >>= fun t => .of (k t))
      ((if signum < 0 then .error (.printf (.wrongType .negativeUnsigned)) else ofKept kept given) >>= k)
      (if signum < 0 then keptCalls kept .keptToString else keptCalls kept c) := by
  unfold nonNegative
  by_cases h : signum < 0
  · rw [if_pos h, if_pos h, if_pos h]
    have := does_bind (does_quoted kept) (f := fun _ => .of (.error (.printf (.wrongType .negativeUnsigned)))) (does_of (.error (.printf (.wrongType .negativeUnsigned)) : Res (Option JStr)))
    rw [List.append_nil] at this
    exact does_error this
  · rw [if_neg h, if_neg h, if_neg h]
    exact does_kept ha k

/-- The calls of the constructor, and then those of the conversion. -/
theorem does_int {v : BigTold} {float : Effect (List BigAsked) (Option (OwnForms.FloatProg (List BigAsked)))}
    {ref : RefSlot} {k : OwnForms.IntProg (List BigAsked) → Effect (List BigAsked) Seq} {r : IntForm → Res Seq}
    {precision : Int} {u : Bool} {c : BigAsked}
    (h : ∀ kept signum, Does (k (form (kept.map KeptTold.noted) signum)) (r (BigTold.number kept signum))
      (if signum = 0 ∧ precision = 0 then [] else if u ∧ signum < 0 then keptCalls kept .keptToString
        else keptCalls kept c)) :
    Does (OwnForms.onInt (traits v.noted float ref) k) ((v.told ref).asIntForm >>= r) (bigInteger precision u c v) := by
  rcases v with ⟨abs, signum, text, int, long⟩
  intro log
  rcases abs with e | kept
  · rfl
  rcases signum with e | n
  · show (Except.error e, (log ++ [BigAsked.abs]) ++ [BigAsked.signum]) = _
    rw [List.append_assoc]
    rfl
  · show k (form (kept.map KeptTold.noted) n) ((log ++ [.abs]) ++ [.signum]) = _
    rw [h kept n, List.append_assoc, List.append_assoc]
    unfold bigInteger
    cases kept with
    | none => simp only [keptCalls, ite_self]; rfl
    | some x => rfl

theorem does_d {v : BigTold} {float : Effect (List BigAsked) (Option (OwnForms.FloatProg (List BigAsked)))}
    {ref : RefSlot} {ctx : FormatContext} :
    Does (OwnForms.onInt (traits v.noted float ref) (OwnForms.d ctx)) ((v.told ref).asIntForm >>= SeqFormatter.d ctx)
      (bigInteger ctx.precision false .keptToString v) := by
  refine does_int fun kept signum => ?_
  have e : OwnForms.d ctx (form (kept.map KeptTold.noted) signum) = if signum = 0 ∧ ctx.precision = 0 then _ else _ := rfl
  rw [e]
  unfold SeqFormatter.d
  have e : (BigTold.number kept signum).signum = signum := rfl
  rw [e]
  by_cases h : signum = 0 ∧ ctx.precision = 0
  · rw [if_pos h, if_pos h, if_pos h]
    exact does_of _
  · rw [if_neg h, if_neg h, if_neg h, if_neg (by simp)]
    exact does_kept (fun _ => rfl) _

theorem does_unsigned {v : BigTold} {float : Effect (List BigAsked) (Option (OwnForms.FloatProg (List BigAsked)))}
    {ref : RefSlot} {ctx : FormatContext} {ask : Kept (List BigAsked) → Effect (List BigAsked) (Option JStr)}
    {given : KeptTold → Res (Option JStr)} {c : BigAsked}
    {k : OwnForms.IntProg (List BigAsked) → Effect (List BigAsked) Seq} {r : IntForm → Res Seq} {pre : JStr}
    (ha : ∀ v : KeptTold, ask v.noted = bigNoting c (given v))
    (hk : ∀ value signum, k (form value signum) =
      OwnForms.unsigned ctx (form value signum) (nonNegative value signum ask) pre)
    (hr : ∀ kept signum, r (BigTold.number kept signum) = SeqFormatter.formatUnsignedInteger ctx signum
      (if signum < 0 then .error (.printf (.wrongType .negativeUnsigned)) else ofKept kept given) pre) :
    Does (OwnForms.onInt (traits v.noted float ref) k) ((v.told ref).asIntForm >>= r)
      (bigInteger ctx.precision true c v) := by
  refine does_int fun kept signum => ?_
  rw [hk, hr]
  have e : OwnForms.unsigned ctx (form (kept.map KeptTold.noted) signum)
    (nonNegative (kept.map KeptTold.noted) signum ask) pre = if signum = 0 ∧ ctx.precision = 0 then _ else _ := rfl
  rw [e]
  unfold SeqFormatter.formatUnsignedInteger
  by_cases h : signum = 0 ∧ ctx.precision = 0
  · rw [if_pos h, if_pos h, if_pos h]
    exact does_of _
  · rw [if_neg h, if_neg h, if_neg h]
    simp only [true_and]
    exact does_nonNegative ha _

theorem does_formatter (env : DateEnv) (sp : Specifier) (ctx : FormatContext) (v : BigTold)
    (float : Effect (List BigAsked) (Option (OwnForms.FloatProg (List BigAsked)))) (ref : RefSlot)
    (h : readsFloat sp = false) :
    Does (OwnForms.formatterFor env sp ctx (traits v.noted float ref))
      (DefaultAppender.formatterFor env sp ctx (v.told ref)) (bigAsked sp ctx.precision v) := by
  have hs : Does (OwnForms.s ctx (traits v.noted float ref)) (SeqFormatter.s ctx (v.told ref)) [.toString] := by
    rcases v with ⟨abs, signum, text, int, long⟩
    intro log
    rcases text with e | _ | t <;> rfl
  have ht : Does (OwnForms.t env ctx (traits v.noted float ref)) (SeqFormatter.t env ctx (v.told ref)) [.longValue] := by
    rcases v with ⟨abs, signum, text, int, long⟩
    intro log
    rcases long with e | n
    · rfl
    · have e1 : (traits (BigTold.noted ⟨abs, signum, text, int, .ok n⟩) float ref).asTemporal =
        bigNoting .longValue (.ok n) >>= fun _ => .of (longToInstant n >>= fun a => .ok (some (.stamp a))) := rfl
      have e2 : (BigTold.told ⟨abs, signum, text, int, .ok n⟩ ref).asTemporal =
        longToInstant n >>= fun a => .ok (.stamp a) := rfl
      unfold OwnForms.t SeqFormatter.t
      rw [e1, e2]
      rcases longToInstant n with e | a <;> rfl
  cases sp
  case d => exact does_d
  case u => exact does_unsigned (given := (·.text)) (fun _ => rfl) (fun _ _ => rfl) (fun _ _ => rfl)
  case o => exact does_unsigned (given := (·.radix 8)) (fun _ => rfl) (fun _ _ => rfl) (fun _ _ => rfl)
  case x => exact does_unsigned (given := (·.radix 16)) (fun _ => rfl) (fun _ _ => rfl) (fun _ _ => rfl)
  case upperX =>
    have h := does_upper (does_unsigned (v := v) (float := float) (ref := ref) (ctx := ctx) (k := OwnForms.x ctx)
      (r := SeqFormatter.x ctx) (given := (·.radix 16)) (fun _ => rfl) (fun _ _ => rfl) (fun _ _ => rfl))
    rwa [bind_assoc] at h
  case s => exact hs
  case upperS => exact does_upper hs
  case t => exact ht
  case upperT => exact does_upper ht
  case c =>
    rcases v with ⟨abs, signum, text, int, long⟩
    intro log
    rcases int with e | n <;> rfl
  case p =>
    intro log
    rw [show bigAsked .p ctx.precision v = [] from rfl, List.append_nil]
    cases ref <;> rfl
  case percent => exact does_of _
  case n => exact does_of _
  all_goals exact absurd h (by decide)

theorem not_float (env : DateEnv) (sp : Specifier) (ctx : FormatContext) (t : Traits) (x : Res FloatForm)
    (h : readsFloat sp = false) : DefaultAppender.formatterFor env sp ctx { t with asFloatForm := x } =
      DefaultAppender.formatterFor env sp ctx t := by
  cases sp <;> first | rfl | exact absurd h (by decide)

theorem sign_eq (n : Int) : n.sign = signumOf n := by
  unfold signumOf
  by_cases h : n < 0
  · rw [if_pos h, Int.sign_eq_neg_one_of_neg h]
  · rw [if_neg h]
    by_cases h0 : n = 0
    · rw [if_pos h0, h0]; rfl
    · rw [if_neg h0, Int.sign_eq_one_of_pos (by omega)]

theorem told_overriding (n : Int) (text : JStr) (ref : RefSlot) :
    { (overriding n text).told ref with asFloatForm := (bigIntegerTraits n ref).asFloatForm } = shownAs n text ref := by
  have e : ((overriding n text).told ref).asIntForm = (shownAs n text ref).asIntForm := by
    show Except.ok (BigTold.number (some _) n.sign) = Except.ok _
    rw [sign_eq]
    unfold BigTold.number visibleText nonNegativeOnly ofKept IntForm.ofBigInteger
    by_cases h : 0 ≤ n
    · simp only [if_pos h]; rfl
    · simp only [if_neg h]; rfl
  show Traits.mk _ _ _ _ _ _ _ = Traits.mk _ _ _ _ _ _ _
  rw [e]
  rfl

theorem shown_plain (n : Int) (ref : RefSlot) : shownAs n (intToString n) ref = bigIntegerTraits n ref := by
  have e : visibleText n (intToString n) = toRadix 10 n.natAbs := by
    unfold visibleText intToString
    by_cases h : 0 ≤ n
    · rw [if_pos h, if_neg (by omega)]; rfl
    · rw [if_neg h]
  unfold shownAs
  rw [e]
  rfl

end OwnBig

/-- C110: the calls of a directive on a `BigInteger` of any class, in their order. -/
theorem C110_calls (env : DateEnv) (sp : Specifier) (ctx : FormatContext) (v : BigTold)
    (float : Effect (List BigAsked) (Option (OwnForms.FloatProg (List BigAsked)))) (ref : RefSlot) (log : List BigAsked)
    (h : readsFloat sp = false) :
    (OwnForms.formatterFor env sp ctx (OwnBig.traits v.noted float ref) log).2 = log ++ bigAsked sp ctx.precision v :=
  congrArg Prod.snd (OwnBig.does_formatter env sp ctx v float ref h log)

/-- C110: and what it prints: the sign that `signum()` tells and the digits that the object `abs()` gives. -/
theorem C110_prints (env : DateEnv) (sp : Specifier) (ctx : FormatContext) (v : BigTold)
    (float : Effect (List BigAsked) (Option (OwnForms.FloatProg (List BigAsked)))) (ref : RefSlot) (log : List BigAsked)
    (h : readsFloat sp = false) :
    (OwnForms.formatterFor env sp ctx (OwnBig.traits v.noted float ref) log).1 =
      DefaultAppender.formatterFor env sp ctx (v.told ref) :=
  congrArg Prod.fst (OwnBig.does_formatter env sp ctx v float ref h log)

/-- C110: as a width or precision it is asked `intValue()` and nothing else. -/
theorem C110_star (sp : Specifier) (v : BigTold)
    (float : Effect (List BigAsked) (Option (OwnForms.FloatProg (List BigAsked)))) (ref : RefSlot)
    (rest : List (OwnForms.Arg (List BigAsked))) (log : List BigAsked) :
    OwnForms.nextInt sp (OwnBig.traits v.noted float ref :: rest) log =
      (v.int.map fun n => (n, rest), log ++ [.intValue]) := by
  rcases v with ⟨abs, signum, text, int, long⟩
  rcases int with e | n <;> rfl

/-- C110: an object that answers as the JDK's own class does is printed as the number. -/
theorem C110_same (env : DateEnv) (sp : Specifier) (ctx : FormatContext) (n : Int)
    (float : Effect (List BigAsked) (Option (OwnForms.FloatProg (List BigAsked)))) (ref : RefSlot) (log : List BigAsked)
    (h : readsFloat sp = false) :
    (OwnForms.formatterFor env sp ctx (OwnBig.traits (plainBig n).noted float ref) log).1 =
      DefaultAppender.formatterFor env sp ctx (bigIntegerTraits n ref) := by
  have e : (plainBig n).told ref = (overriding n (intToString n)).told ref := by
    unfold overriding
    have e : (if 0 ≤ n then { plainKept n with text := .ok (some (intToString n)) } else plainKept n) = plainKept n := by
      by_cases h : 0 ≤ n
      · rw [if_pos h]
        unfold plainKept intToString
        rw [if_neg (by omega)]
        rfl
      · rw [if_neg h]
    rw [e]
    rfl
  rw [C110_prints env sp ctx _ float ref log h, e,
    ← OwnBig.not_float env sp ctx _ (bigIntegerTraits n ref).asFloatForm h, OwnBig.told_overriding, OwnBig.shown_plain]

/-- C110: a class that overrides `toString()` alone changes what `%d` and `%u` print, but only for numbers that are not
negative; and what `%s` prints. -/
theorem C110_toString (env : DateEnv) (sp : Specifier) (ctx : FormatContext) (n : Int) (text : JStr)
    (float : Effect (List BigAsked) (Option (OwnForms.FloatProg (List BigAsked)))) (ref : RefSlot) (log : List BigAsked)
    (h : readsFloat sp = false) :
    (OwnForms.formatterFor env sp ctx (OwnBig.traits (overriding n text).noted float ref) log).1 =
      DefaultAppender.formatterFor env sp ctx (shownAs n text ref) := by
  rw [C110_prints env sp ctx _ float ref log h,
    ← OwnBig.not_float env sp ctx _ (bigIntegerTraits n ref).asFloatForm h, OwnBig.told_overriding]

/-- What a conversion prints, and the calls noted. -/
def bigNotedBy (sp : Specifier) (precision : Int) (v : BigTold) : Res JStr × List BigAsked :=
  let o := OwnForms.formatterFor sampleDateEnv sp ⟨{}, UNSET, precision, none⟩ (OwnBig.traits v.noted (.of (.ok none)) .null) []
  (o.1.map Seq.text, o.2)

example : bigNotedBy .d UNSET (plainBig (-1234)) = (.ok (js! "-1234"), [.abs, .signum, .keptToString]) := by decide +kernel
example : bigNotedBy .upperX UNSET (plainBig 255) = (.ok (js! "FF"), [.abs, .signum, .keptToStringRadix 16]) := by
  decide +kernel
example : bigNotedBy .o UNSET (plainBig (-8)) =
    (.error (.printf (.wrongType .negativeUnsigned)), [.abs, .signum, .keptToString]) := by decide +kernel
example : bigNotedBy .d 0 (plainBig 0) = (.ok [], [.abs, .signum]) := by decide +kernel
example : bigNotedBy .s UNSET (plainBig (-7)) = (.ok (js! "-7"), [.toString]) := by decide +kernel
example : bigNotedBy .c UNSET (plainBig 65601) = (.ok (js! "A"), [.intValue]) := by decide +kernel
example : bigNotedBy .t UNSET { plainBig 0 with long := .error .external } = (.error .external, [.longValue]) := by
  decide +kernel
-- `abs()` throws, or returns null; `signum()` contradicts the digits; `toString()` throws while the message is made
example : bigNotedBy .x UNSET { plainBig 1 with abs := .error .external } = (.error .external, [.abs]) := by decide +kernel
example : bigNotedBy .x UNSET { plainBig 1 with abs := .ok none } = (.error .nullPointer, [.abs, .signum]) := by
  decide +kernel
example : bigNotedBy .d UNSET { plainBig 1 with signum := .ok (-9) } = (.ok (js! "-1"), [.abs, .signum, .keptToString]) := by
  decide +kernel
example : bigNotedBy .u UNSET { plainBig (-1) with abs := .ok (some ⟨.error .external, fun _ => .error .external⟩) } =
    (.error (.printf (.wrongType .negativeUnsigned)), [.abs, .signum, .keptToString]) := by decide +kernel
-- C110_toString: separators appear under %d for the positive number only
example : (bigNotedBy .d UNSET (overriding 1234 (js! "1,234"))).1 = .ok (js! "1,234") := by decide +kernel
example : (bigNotedBy .d UNSET (overriding (-1234) (js! "-1,234"))).1 = .ok (js! "-1234") := by decide +kernel
example : (bigNotedBy .s UNSET (overriding (-1234) (js! "-1,234"))).1 = .ok (js! "-1,234") := by decide +kernel
example : (bigNotedBy .x UNSET (overriding 1234 (js! "1,234"))).1 = .ok (js! "4d2") := by decide +kernel
example : (bigNotedBy .d 6 (overriding 1234 (js! "1,234"))).1 = .ok (js! "01,234") := by decide +kernel

end FastPrintf
