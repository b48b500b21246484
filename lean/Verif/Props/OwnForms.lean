/-
C109: arguments and numbers of the user's own classes.
-/
import Verif.Spec.OwnForms
import Verif.Props.Live

namespace FastPrintf
open Spec

variable {σ : Type}

namespace OwnForms

theorem bind_at {α β : Type} (x : Effect σ α) (f : α → Effect σ β) (s : σ) :
    (x >>= f) s = match x s with
      | (.ok a, s) => f a s
      | (.error e, s) => (.error e, s) := rfl

/-- The calls made, whatever was noted before.  If the text of a layout cannot be formed, the question for the sign is
left out. -/
def Runs (x : Effect (List Asked) Seq) (calls : List Asked) : Prop :=
  ∀ log, (x log).2 = log ++ calls ∨
    ∃ e c, (x log).1 = .error e ∧ (x log).2 ++ [c] = log ++ calls ∧ (c = .isNegative ∨ c = .signum)

theorem runs_of (r : Res Seq) : Runs (.of r) [] := fun log => .inl (List.append_nil log).symm

theorem runs_ok {α : Type} {c : Asked} {a : α} {k : α → Effect (List Asked) Seq} {cs : List Asked} (h : Runs (k a) cs) :
    Runs (noting c (.ok a) >>= k) (c :: cs) := by
  intro log
  have e : (noting c (.ok a) >>= k) log = k a (log ++ [c]) := rfl
  rw [e]
  rcases h (log ++ [c]) with h | ⟨e, d, h1, h2, h3⟩
  · exact .inl (by rw [h]; simp)
  · exact .inr ⟨e, d, h1, by rw [h2]; simp, h3⟩

theorem runs_error {α : Type} {c : Asked} {e : Err} {k : α → Effect (List Asked) Seq} :
    Runs (noting c (.error e) >>= k) [c] := fun _ => .inl rfl

theorem runs_null {α : Type} {c : Asked} {k : α → Effect (List Asked) Seq} :
    Runs (noting c (.ok none) >>= fun a => nonNull a >>= k) [c] := fun _ => .inl rfl

theorem runs_some {α : Type} {a : α} {k : α → Effect (List Asked) Seq} {cs : List Asked} (h : Runs (k a) cs) :
    Runs (nonNull (some a) >>= k) cs := h

theorem runs_last {c : Asked} {α : Type} {r : Res α} {k : α → Res Seq} :
    Runs (noting c r >>= fun a => .of (k a)) [c] := by
  cases r with
  | error e => exact runs_error
  | ok a => exact runs_ok (runs_of _)

/-- A question whose answer may be `null`, and then only computation. -/
theorem runs_ask {c : Asked} {α : Type} {r : Res (Option α)} {k : α → Res Seq} :
    Runs (noting c r >>= fun a => nonNull a >>= fun a => .of (k a)) [c] := by
  rcases r with e | a | a
  · exact runs_error
  · exact runs_null
  · exact runs_ok (runs_some (runs_of _))

theorem runs_upper {x : Effect (List Asked) Seq} {cs : List Asked} (h : Runs x cs) : Runs (upper x) cs := by
  intro log
  unfold upper
  rw [bind_at]
  rcases hx : x log with ⟨e | q, log'⟩
  · have := h log
    rw [hx] at this
    exact this
  · rcases h log with h | ⟨e, d, h1, h2, h3⟩
    · rw [hx] at h; exact .inl h
    · rw [hx] at h1; cases h1

theorem runs_sign {c : Asked} (hc : c = .isNegative ∨ c = .signum) {α β : Type} {r : Res α} {q : Res β}
    {k : α → β → Res Seq} : Runs (.of r >>= fun a => noting c q >>= fun b => .of (k a b)) [c] := by
  cases r with
  | error e => exact fun log => .inr ⟨e, c, rfl, rfl, hc⟩
  | ok a => exact runs_last

theorem runs_layout {c l : Asked} (hc : c = .isNegative ∨ c = .signum) {α β : Type} {r : Res (Option FloatLayout)}
    {t : FloatLayout → Res α} {q : Res β} {k : α → β → Res Seq} :
    Runs (noting l r >>= fun a => nonNull a >>= fun a => .of (t a) >>= fun a => noting c q >>= fun b => .of (k a b))
      (l :: match r with
        | .ok (some _) => [c]
        | _ => []) := by
  rcases r with e | a | a
  · exact runs_error
  · exact runs_null
  · exact runs_ok (runs_some (runs_sign hc))

theorem runs_int {v : ArgTold} {ctx : FormatContext} {text : Asked} {ask : IntProg (List Asked) → Effect (List Asked) (Option JStr)}
    {given : IntTold → Res (Option JStr)} (ha : ∀ n : IntTold, ask n.noted = noting text (given n)) {zero : Res Seq}
    {k : Int → JStr → Res Seq} :
    Runs (onInt v.noted fun n => n.signum >>= fun signum =>
        if signum = 0 ∧ ctx.precision = 0 then .of zero
        else ask n >>= fun t => nonNull t >>= fun t => .of (k signum t))
      (intAsked ctx.precision text v) := by
  have e : v.noted.asIntForm = noting .asIntForm (v.intForm.map (Option.map IntTold.noted)) := rfl
  unfold onInt intAsked
  rw [e]
  rcases v.intForm with er | n | n
  · exact runs_error
  · exact runs_null
  · refine runs_ok (runs_some ?_)
    dsimp only
    rw [show n.noted.signum = noting .signum n.signum from rfl]
    rcases n.signum with er | i
    · exact runs_error
    · refine runs_ok ?_
      dsimp only
      by_cases h : i = 0 ∧ ctx.precision = 0
      · rw [if_pos h, if_pos h]; exact runs_of _
      · rw [if_neg h, if_neg h, ha]; exact runs_ask

theorem runs_special {x : FloatTold} {ctx : FormatContext} {rest : Effect (List Asked) Seq} {cs : List Asked}
    (h : Runs rest cs) :
    Runs (special x.noted >>= fun b => if b then nanOrInfinity ctx x.noted else rest)
      (.isNaN ::
        match x.isNaN with
        | .ok true => [.isNaN]
        | .ok false =>
          .isInfinite ::
            (match x.isInfinite with
            | .ok true => [.isNaN, .signum]
            | .ok false => cs
            | .error _ => [])
        | .error _ => []) := by
  intro log
  have e1 : x.noted.isNaN = noting .isNaN x.isNaN := rfl
  have e2 : x.noted.isInfinite = noting .isInfinite x.isInfinite := rfl
  have e3 : x.noted.signum = noting .signum x.signum := rfl
  unfold special nanOrInfinity
  rw [e1, e2, e3]
  rcases h1 : x.isNaN with er | b
  · exact .inl rfl
  · cases b with
    | true =>
      refine .inl ?_
      show log ++ [Asked.isNaN] ++ [Asked.isNaN] = _
      simp
    | false =>
      rcases h2 : x.isInfinite with er | b
      · refine .inl ?_
        show log ++ [Asked.isNaN] ++ [Asked.isInfinite] = _
        simp
      · cases b with
        | true =>
          rcases h3 : x.signum with er | n
          · refine .inl ?_
            show log ++ [Asked.isNaN] ++ [Asked.isInfinite] ++ [Asked.isNaN] ++ [Asked.signum] = _
            simp
          · refine .inl ?_
            show log ++ [Asked.isNaN] ++ [Asked.isInfinite] ++ [Asked.isNaN] ++ [Asked.signum] = _
            simp
        | false =>
          have := h (log ++ [Asked.isNaN] ++ [Asked.isInfinite])
          rw [show log ++ [Asked.isNaN] ++ [Asked.isInfinite] ++ cs = log ++ (Asked.isNaN :: Asked.isInfinite :: cs) by
            simp] at this
          exact this

theorem runs_float {v : ArgTold} {ctx : FormatContext} {layout sign : Asked} {given : FloatTold → Res (Option FloatLayout)}
    {rest : FloatProg (List Asked) → Effect (List Asked) Seq}
    (hr : ∀ x : FloatTold, Runs (rest x.noted) (layout :: match given x with
      | .ok (some _) => [sign]
      | _ => [])) :
    Runs (onFloat v.noted fun x => special x >>= fun b => if b then nanOrInfinity ctx x else rest x)
      (floatAsked layout given sign v) := by
  have e : v.noted.asFloatForm = noting .asFloatForm (v.floatForm.map (Option.map FloatTold.noted)) := rfl
  unfold onFloat floatAsked
  rw [e]
  rcases v.floatForm with er | x | x
  · exact runs_error
  · exact runs_null
  · exact runs_ok (runs_some (runs_special (hr x)))

theorem six_eq (ctx : FormatContext) : SeqFormatter.precision6 ctx = askedPrecision 6 0 ctx.precision := by
  unfold SeqFormatter.precision6 askedPrecision FormatContext.isPrecisionSet UNSET
  by_cases h : ctx.precision = -1
  · simp [h]
  · by_cases h0 : ctx.precision = 0 <;> simp [h, h0]

theorem general_eq (ctx : FormatContext) : SeqFormatter.gPrecision ctx = askedPrecision 6 1 ctx.precision := by
  unfold SeqFormatter.gPrecision askedPrecision FormatContext.isPrecisionSet UNSET
  by_cases h : ctx.precision = -1 <;> simp [h]

theorem hex_eq (ctx : FormatContext) : SeqFormatter.aPrecision ctx = askedPrecision 13 1 ctx.precision := by
  unfold SeqFormatter.aPrecision askedPrecision FormatContext.isPrecisionSet UNSET
  by_cases h : ctx.precision = -1 <;> simp [h]

theorem runs_f {v : ArgTold} {ctx : FormatContext} : Runs (onFloat v.noted (f ctx))
    (floatAsked (.decimalLayout (askedPrecision 6 0 ctx.precision)) (·.decimal (askedPrecision 6 0 ctx.precision))
      .isNegative v) := by
  rw [← six_eq]
  exact runs_float fun x => runs_layout (.inl rfl)

theorem runs_e {v : ArgTold} {ctx : FormatContext} : Runs (onFloat v.noted (e ctx))
    (floatAsked (.scientificLayout (askedPrecision 6 0 ctx.precision)) (·.scientific (askedPrecision 6 0 ctx.precision))
      .isNegative v) := by
  rw [← six_eq]
  exact runs_float fun x => runs_layout (.inl rfl)

theorem runs_g {v : ArgTold} {ctx : FormatContext} : Runs (onFloat v.noted (g ctx))
    (floatAsked (.generalLayout (askedPrecision 6 1 ctx.precision)) (·.general (askedPrecision 6 1 ctx.precision))
      .isNegative v) := by
  rw [← general_eq]
  exact runs_float fun x => runs_layout (.inl rfl)

theorem runs_a {v : ArgTold} {ctx : FormatContext} : Runs (onFloat v.noted (a ctx))
    (floatAsked (.hexLayout (askedPrecision 13 1 ctx.precision)) (·.hex (askedPrecision 13 1 ctx.precision))
      .signum v) := by
  rw [← hex_eq]
  exact runs_float fun x => runs_layout (.inr rfl)

theorem runs_x {v : ArgTold} {ctx : FormatContext} : Runs (onInt v.noted (x ctx))
    (intAsked ctx.precision .toHexString v) := runs_int fun _ => rfl

theorem runs_formatter (env : DateEnv) (sp : Specifier) (ctx : FormatContext) (v : ArgTold) :
    Runs (formatterFor env sp ctx v.noted) (asked sp ctx.precision v) := by
  cases sp
  case d => exact runs_int fun _ => rfl
  case u => exact runs_int fun _ => rfl
  case o => exact runs_int fun _ => rfl
  case x => exact runs_x
  case upperX => exact runs_upper runs_x
  case f => exact runs_f
  case upperF => exact runs_upper runs_f
  case e => exact runs_e
  case upperE => exact runs_upper runs_e
  case g => exact runs_g
  case upperG => exact runs_upper runs_g
  case a => exact runs_a
  case upperA => exact runs_upper runs_a
  case s => exact runs_ask
  case upperS => exact runs_upper runs_ask
  case t => exact runs_ask
  case upperT => exact runs_upper runs_ask
  case c => exact runs_last
  case p => exact runs_ask
  case percent => exact runs_of _
  case n => exact runs_of _

end OwnForms

/-- A directive calls, in this order, the methods in the table `asked`: of the argument the one that gives the reading of
the conversion, and of the number it returns those that the conversion needs, until one throws or returns `null`.  In
particular every method is called at most once, except `isNaN()` of a NaN or an infinity, and no number is asked for a text
or a layout that is not printed.  Only when the text of a layout cannot be formed is the last call, the one for the sign,
left out. -/
theorem C109_calls (env : DateEnv) (sp : Specifier) (ctx : FormatContext) (v : ArgTold) (log : List Asked) :
    let o := OwnForms.formatterFor env sp ctx v.noted log
    o.2 = log ++ asked sp ctx.precision v ∨
      ∃ e c, o.1 = .error e ∧ o.2 ++ [c] = log ++ asked sp ctx.precision v ∧ (c = .isNegative ∨ c = .signum) :=
  OwnForms.runs_formatter env sp ctx v log

namespace OwnForms

theorem d_eq (ctx : FormatContext) (n : IntForm) : d ctx (ownInt (σ := σ) n) = .of (SeqFormatter.d ctx n) := by
  funext s
  show (if n.signum = 0 ∧ ctx.precision = 0 then _ else _ : Effect σ Seq) s = _
  unfold SeqFormatter.d
  by_cases h : n.signum = 0 ∧ ctx.precision = 0
  · rw [if_pos h, if_pos h]
  · rw [if_neg h, if_neg h]
    show ((.of (n.toDecimalString.map some) : Effect σ _) >>= _) s = _
    rcases n.toDecimalString with e | text
    · rfl
    · rfl

theorem unsigned_eq (ctx : FormatContext) (n : IntForm) (r : Res JStr) (pre : JStr) :
    unsigned ctx (ownInt (σ := σ) n) (.of (r.map some)) pre =
      .of (SeqFormatter.formatUnsignedInteger ctx n.signum r pre) := by
  funext s
  show (if n.signum = 0 ∧ ctx.precision = 0 then _ else _ : Effect σ Seq) s = _
  unfold SeqFormatter.formatUnsignedInteger
  by_cases h : n.signum = 0 ∧ ctx.precision = 0
  · rw [if_pos h, if_pos h]
  · rw [if_neg h, if_neg h]
    rcases r with e | text
    · rfl
    · rfl

theorem nan_eq (ctx : FormatContext) (b : Bool) (x : FloatForm) :
    nanOrInfinity ctx (ownFloat (σ := σ) b x) = .of (SeqFormatter.nanOrInfinity ctx x) := by
  funext s
  show (if x.isNaN then _ else _ : Effect σ Seq) s = _
  unfold SeqFormatter.nanOrInfinity
  by_cases h : x.isNaN
  · rw [if_pos h, if_pos h]
  · rw [if_neg h, if_neg h]; rfl

/-- The four conversions of floating-point numbers have this shape. -/
theorem special_eq (b : Bool) (x : FloatForm) {p : Effect σ Seq} {q : Effect σ Seq} :
    (special (ownFloat b x) >>= fun c => if c then p else q) = if x.isNaN || x.isInfinite then p else q := by
  funext s
  have e1 : (ownFloat (σ := σ) b x).isNaN = .of (.ok x.isNaN) := rfl
  have e2 : (ownFloat (σ := σ) b x).isInfinite = .of (.ok x.isInfinite) := rfl
  unfold special
  rw [e1, e2]
  cases x.isNaN <;> cases x.isInfinite <;> rfl

/-- The number with the sign that `isNegative()` tells. -/
def signedBy (b : Bool) (x : FloatForm) : FloatForm := { x with signum := if b then -1 else 0 }

theorem signedBy_negative (b : Bool) (x : FloatForm) : (signedBy b x).isNegative = b := by
  cases b <;> rfl

theorem f_eq (ctx : FormatContext) (b : Bool) (x : FloatForm) : f ctx (ownFloat (σ := σ) b x) =
    .of (if x.isNaN || x.isInfinite then SeqFormatter.nanOrInfinity ctx x else SeqFormatter.f ctx (signedBy b x)) := by
  unfold f
  rw [special_eq, nan_eq]
  by_cases h : (x.isNaN || x.isInfinite) = true
  · rw [if_pos h, if_pos h]
  · rw [if_neg h, if_neg h]
    unfold SeqFormatter.f
    rw [if_neg (show ¬ ((signedBy b x).isNaN || (signedBy b x).isInfinite) = true from h), signedBy_negative]
    funext s
    show ((.of ((x.decimalLayout (SeqFormatter.precision6 ctx)).map some) : Effect σ _) >>= _) s =
      ((x.decimalLayout (SeqFormatter.precision6 ctx) >>= _ : Res Seq), s)
    rcases x.decimalLayout (SeqFormatter.precision6 ctx) with e | l
    · rfl
    · show ((.of (SeqFormatter.formatFractionalPart _ _ _) : Effect σ _) >>= _) s =
        ((SeqFormatter.formatFractionalPart _ _ _ >>= _ : Res Seq), s)
      rcases SeqFormatter.formatFractionalPart l.mantissa (SeqFormatter.precision6 ctx) (ctx.hasFlag .alternate) with e | q
      · rfl
      · rfl

theorem e_eq (ctx : FormatContext) (b : Bool) (x : FloatForm) : e ctx (ownFloat (σ := σ) b x) =
    .of (if x.isNaN || x.isInfinite then SeqFormatter.nanOrInfinity ctx x else SeqFormatter.e ctx (signedBy b x)) := by
  unfold e
  rw [special_eq, nan_eq]
  by_cases h : (x.isNaN || x.isInfinite) = true
  · rw [if_pos h, if_pos h]
  · rw [if_neg h, if_neg h]
    unfold SeqFormatter.e
    rw [if_neg (show ¬ ((signedBy b x).isNaN || (signedBy b x).isInfinite) = true from h), signedBy_negative]
    funext s
    show ((.of ((x.scientificLayout (SeqFormatter.precision6 ctx)).map some) : Effect σ _) >>= _) s =
      ((x.scientificLayout (SeqFormatter.precision6 ctx) >>= _ : Res Seq), s)
    rcases x.scientificLayout (SeqFormatter.precision6 ctx) with e | l
    · rfl
    · show ((.of (SeqFormatter.formatFractionalPart _ _ _ >>= _) : Effect σ _) >>= _) s =
        ((SeqFormatter.formatFractionalPart _ _ _ >>= _ : Res Seq), s)
      rcases SeqFormatter.formatFractionalPart l.mantissa (SeqFormatter.precision6 ctx) (ctx.hasFlag .alternate) with e | q
      · rfl
      · rcases l with ⟨m, _ | ex⟩ <;> rfl

theorem g_eq (ctx : FormatContext) (b : Bool) (x : FloatForm) : g ctx (ownFloat (σ := σ) b x) =
    .of (if x.isNaN || x.isInfinite then SeqFormatter.nanOrInfinity ctx x else SeqFormatter.g ctx (signedBy b x)) := by
  unfold g
  rw [special_eq, nan_eq]
  by_cases h : (x.isNaN || x.isInfinite) = true
  · rw [if_pos h, if_pos h]
  · rw [if_neg h, if_neg h]
    unfold SeqFormatter.g
    rw [if_neg (show ¬ ((signedBy b x).isNaN || (signedBy b x).isInfinite) = true from h), signedBy_negative]
    funext s
    show ((.of ((x.generalLayout (SeqFormatter.gPrecision ctx)).map some) : Effect σ _) >>= _) s =
      ((x.generalLayout (SeqFormatter.gPrecision ctx) >>= _ : Res Seq), s)
    rcases x.generalLayout (SeqFormatter.gPrecision ctx) with e | ⟨m, _ | ex⟩
    · rfl
    · show ((.of (SeqFormatter.formatGDecimal ctx _ _) : Effect σ _) >>= _) s =
        ((SeqFormatter.formatGDecimal ctx _ _ >>= _ : Res Seq), s)
      rcases SeqFormatter.formatGDecimal ctx ⟨m, none⟩ (SeqFormatter.gPrecision ctx) with e | q <;> rfl
    · show ((.of (SeqFormatter.formatGScientific ctx _ _) : Effect σ _) >>= _) s =
        ((SeqFormatter.formatGScientific ctx _ _ >>= _ : Res Seq), s)
      rcases SeqFormatter.formatGScientific ctx m ex with e | q <;> rfl

theorem a_eq (ctx : FormatContext) (b : Bool) (x : FloatForm) : a ctx (ownFloat (σ := σ) b x) =
    .of (SeqFormatter.a ctx x) := by
  unfold a
  rw [special_eq, nan_eq]
  unfold SeqFormatter.a
  by_cases h : (x.isNaN || x.isInfinite) = true
  · rw [if_pos h, if_pos h]
  · rw [if_neg h, if_neg h]
    funext s
    show ((.of ((x.hexLayout (SeqFormatter.aPrecision ctx)).map some) : Effect σ _) >>= _) s =
      ((x.hexLayout (SeqFormatter.aPrecision ctx) >>= _ : Res Seq), s)
    rcases x.hexLayout (SeqFormatter.aPrecision ctx) with e | l
    · rfl
    · by_cases hp : ctx.isPrecisionSet = true
      · simp only [if_pos hp]
        show ((.of (SeqFormatter.formatFractionalPart _ _ _ >>= _) : Effect σ _) >>= _) s =
          ((SeqFormatter.formatFractionalPart _ _ _ >>= _ : Res Seq), s)
        rcases SeqFormatter.formatFractionalPart l.mantissa (SeqFormatter.aPrecision ctx) (ctx.hasFlag .alternate) with e | q
        · rfl
        · rcases l with ⟨m, _ | ex⟩ <;> rfl
      · simp only [if_neg hp]
        rcases l with ⟨m, _ | ex⟩ <;> rfl

theorem signedBy_f (ctx : FormatContext) (x : FloatForm) :
    (if x.isNaN || x.isInfinite then SeqFormatter.nanOrInfinity ctx x
      else SeqFormatter.f ctx (signedBy (x.signum < 0) x)) = SeqFormatter.f ctx x := by
  have e : (signedBy (x.signum < 0) x).isNegative = x.isNegative := signedBy_negative _ _
  unfold SeqFormatter.f
  rw [e]
  by_cases h : (x.isNaN || x.isInfinite) = true
  · rw [if_pos h, if_pos h]
  · rw [if_neg h, if_neg h, if_neg (show ¬ ((signedBy (x.signum < 0) x).isNaN ||
      (signedBy (x.signum < 0) x).isInfinite) = true from h)]
    rfl

theorem signedBy_e (ctx : FormatContext) (x : FloatForm) :
    (if x.isNaN || x.isInfinite then SeqFormatter.nanOrInfinity ctx x
      else SeqFormatter.e ctx (signedBy (x.signum < 0) x)) = SeqFormatter.e ctx x := by
  have e : (signedBy (x.signum < 0) x).isNegative = x.isNegative := signedBy_negative _ _
  unfold SeqFormatter.e
  rw [e]
  by_cases h : (x.isNaN || x.isInfinite) = true
  · rw [if_pos h, if_pos h]
  · rw [if_neg h, if_neg h, if_neg (show ¬ ((signedBy (x.signum < 0) x).isNaN ||
      (signedBy (x.signum < 0) x).isInfinite) = true from h)]
    rfl

theorem signedBy_g (ctx : FormatContext) (x : FloatForm) :
    (if x.isNaN || x.isInfinite then SeqFormatter.nanOrInfinity ctx x
      else SeqFormatter.g ctx (signedBy (x.signum < 0) x)) = SeqFormatter.g ctx x := by
  have e : (signedBy (x.signum < 0) x).isNegative = x.isNegative := signedBy_negative _ _
  unfold SeqFormatter.g
  rw [e]
  by_cases h : (x.isNaN || x.isInfinite) = true
  · rw [if_pos h, if_pos h]
  · rw [if_neg h, if_neg h, if_neg (show ¬ ((signedBy (x.signum < 0) x).isNaN ||
      (signedBy (x.signum < 0) x).isInfinite) = true from h)]
    rfl

theorem onInt_eq (t : Traits) {k : IntProg σ → Effect σ Seq} {r : IntForm → Res Seq}
    (h : ∀ n, k (ownInt n) = .of (r n)) :
    onInt (ownArg t) k = (liveArg t).asIntForm >>= fun n => .of (r n) := by
  unfold onInt
  have e1 : (ownArg (σ := σ) t).asIntForm = .of (t.asIntForm.map fun n => some (ownInt n)) := rfl
  have e2 : (liveArg (σ := σ) t).asIntForm = .of t.asIntForm := rfl
  rw [e1, e2]
  rcases t.asIntForm with er | n
  · rfl
  · funext s; show k (ownInt n) s = _; rw [h]; rfl

theorem onFloat_eq (t : Traits) {k : FloatProg σ → Effect σ Seq} {r : FloatForm → Res Seq}
    (h : ∀ x : FloatForm, k (ownFloat (x.signum < 0) x) = .of (r x)) :
    onFloat (ownArg t) k = (liveArg t).asFloatForm >>= fun n => .of (r n) := by
  unfold onFloat
  have e1 : (ownArg (σ := σ) t).asFloatForm =
    .of (t.asFloatForm.map fun x => some (ownFloat (x.signum < 0) x)) := rfl
  have e2 : (liveArg (σ := σ) t).asFloatForm = .of t.asFloatForm := rfl
  rw [e1, e2]
  rcases t.asFloatForm with e | x
  · rfl
  · funext s; show k (ownFloat _ x) s = _; rw [h]; rfl

theorem upper_eq {α : Type} {x : Effect σ α} {r : α → Res Seq} :
    upper (x >>= fun a => .of (r a)) = x >>= fun a => .of (r a >>= Seq.upperCase) := by
  funext s
  unfold upper
  rw [bind_at, bind_at, bind_at]
  rcases x s with ⟨e | a, s'⟩
  · rfl
  · simp only [Effect.of]
    rcases r a with e | q <;> rfl

theorem formatter_eq (env : DateEnv) (sp : Specifier) (ctx : FormatContext) (t : Traits) :
    formatterFor env sp ctx (ownArg (σ := σ) t) = (liveArg t).formatterFor env sp ctx := by
  have hf : ∀ x : FloatForm, f ctx (ownFloat (σ := σ) (x.signum < 0) x) = .of (SeqFormatter.f ctx x) := fun x => by
    rw [f_eq, signedBy_f]
  have he : ∀ x : FloatForm, e ctx (ownFloat (σ := σ) (x.signum < 0) x) = .of (SeqFormatter.e ctx x) := fun x => by
    rw [e_eq, signedBy_e]
  have hg : ∀ x : FloatForm, g ctx (ownFloat (σ := σ) (x.signum < 0) x) = .of (SeqFormatter.g ctx x) := fun x => by
    rw [g_eq, signedBy_g]
  have ha : ∀ x : FloatForm, a ctx (ownFloat (σ := σ) (x.signum < 0) x) = .of (SeqFormatter.a ctx x) := fun x =>
    a_eq ctx _ x
  have hs : s ctx (ownArg (σ := σ) t) = (liveArg t).s ctx := by
    unfold s Live.s
    have e1 : (ownArg (σ := σ) t).asSeq = .of (t.asSeq.map some) := rfl
    have e2 : (liveArg (σ := σ) t).asSeq = .of t.asSeq := rfl
    rw [e1, e2]
    rcases t.asSeq with e | q <;> rfl
  have ht : OwnForms.t env ctx (ownArg (σ := σ) t) = (liveArg t).t env ctx := by
    unfold OwnForms.t Live.t
    have e1 : (ownArg (σ := σ) t).asTemporal = .of (t.asTemporal.map some) := rfl
    have e2 : (liveArg (σ := σ) t).asTemporal = .of t.asTemporal := rfl
    rw [e1, e2]
    rcases t.asTemporal with e | q <;> rfl
  cases sp
  case d => exact onInt_eq t (d_eq ctx)
  case u => exact onInt_eq t (r := SeqFormatter.u ctx) fun n => unsigned_eq ctx n n.toUnsignedDecimalString []
  case o => exact onInt_eq t (r := SeqFormatter.o ctx) fun n => unsigned_eq ctx n n.toOctalString (js! "0")
  case x => exact onInt_eq t (r := SeqFormatter.x ctx) fun n => unsigned_eq ctx n n.toHexString (js! "0x")
  case upperX =>
    exact (congrArg upper (onInt_eq t (r := SeqFormatter.x ctx) fun n => unsigned_eq ctx n n.toHexString (js! "0x"))).trans upper_eq
  case f => exact onFloat_eq t hf
  case upperF => exact (congrArg upper (onFloat_eq t hf)).trans upper_eq
  case e => exact onFloat_eq t he
  case upperE => exact (congrArg upper (onFloat_eq t he)).trans upper_eq
  case g => exact onFloat_eq t hg
  case upperG => exact (congrArg upper (onFloat_eq t hg)).trans upper_eq
  case a => exact onFloat_eq t ha
  case upperA => exact (congrArg upper (onFloat_eq t ha)).trans upper_eq
  case s => exact hs
  case upperS => exact congrArg upper hs
  case t => exact ht
  case upperT => exact congrArg upper ht
  case c => rfl
  case p =>
    funext s
    show _ = Live.p ctx (liveArg t) s
    unfold Live.p
    have e2 : (liveArg (σ := σ) t).ref s = (t.ref, s) := rfl
    rw [e2]
    show ((match t.ref with | .primitive => _ | .null => _ | .object name hash => _ : Res Seq), s) = _
    rcases t.ref with _ | _ | _ <;> rfl
  case percent => rfl
  case n => rfl

theorem nextInt_eq (sp : Specifier) (ts : List Traits) (s : σ) :
    ∃ (r : Res (Int × List Traits)) (s' : σ),
      nextInt sp (ts.map ownArg) s = (r.map fun o => (o.1, o.2.map ownArg), s') ∧
      Live.nextInt sp (ts.map liveArg) s = (r.map fun o => (o.1, o.2.map liveArg), s') := by
  cases ts with
  | nil => exact ⟨.error (.printf (.missingArgument sp.char)), s, rfl, rfl⟩
  | cons t ts =>
    refine ⟨t.asInt.map fun n => (n, ts), s, ?_, ?_⟩
    · show ((.of t.asInt : Effect σ Int) >>= _) s = _
      rcases t.asInt with e | n <;> rfl
    · show ((.of t.asInt : Effect σ Int) >>= _) s = _
      rcases t.asInt with e | n <;> rfl

theorem starWidth_eq (sp : Specifier) (ctx : FormatContext) (ts : List Traits) (s : σ) :
    ∃ (r : Res (FormatContext × List Traits)) (s' : σ),
      starWidth sp ctx (ts.map ownArg) s = (r.map fun o => (o.1, o.2.map ownArg), s') ∧
      Live.starWidth sp ctx (ts.map liveArg) s = (r.map fun o => (o.1, o.2.map liveArg), s') := by
  unfold starWidth Live.starWidth
  by_cases h : ctx.isPrecedingWidth = true
  · rw [if_pos h, if_pos h, bind_at, bind_at]
    obtain ⟨r, s', h1, h2⟩ := nextInt_eq sp ts s
    rw [h1, h2]
    rcases r with e | ⟨w, rest⟩
    · exact ⟨.error e, s', rfl, rfl⟩
    · refine ⟨((if w ≥ 0 then ctx.setWidth w else (ctx.addFlag .leftJustify).setWidth (wrap32 (-w))).map
        fun c => (c, rest)), s', ?_, ?_⟩
      all_goals
        simp only [Except.map, bind_at, Effect.of]
        rcases (if w ≥ 0 then ctx.setWidth w else (ctx.addFlag .leftJustify).setWidth (wrap32 (-w))) with e | c <;> rfl
  · rw [if_neg h, if_neg h]
    exact ⟨.ok (ctx, ts), s, rfl, rfl⟩

theorem starPrecision_eq (sp : Specifier) (ctx : FormatContext) (ts : List Traits) (s : σ) :
    ∃ (r : Res (FormatContext × List Traits)) (s' : σ),
      starPrecision sp ctx (ts.map ownArg) s = (r.map fun o => (o.1, o.2.map ownArg), s') ∧
      Live.starPrecision sp ctx (ts.map liveArg) s = (r.map fun o => (o.1, o.2.map liveArg), s') := by
  unfold starPrecision Live.starPrecision
  by_cases h : ctx.isPrecedingPrecision = true
  · rw [if_pos h, if_pos h, bind_at, bind_at]
    obtain ⟨r, s', h1, h2⟩ := nextInt_eq sp ts s
    rw [h1, h2]
    rcases r with e | ⟨p, rest⟩
    · exact ⟨.error e, s', rfl, rfl⟩
    · refine ⟨((ctx.setPrecision (if p ≥ 0 then p else UNSET)).map fun c => (c, rest)), s', ?_, ?_⟩
      all_goals
        simp only [Except.map, bind_at, Effect.of]
        rcases ctx.setPrecision (if p ≥ 0 then p else UNSET) with e | c <;> rfl
  · rw [if_neg h, if_neg h]
    exact ⟨.ok (ctx, ts), s, rfl, rfl⟩

theorem append_same (env : DateEnv) (app : Appender) (ts : List Traits) (s : σ) :
    ∃ (r : Res (Seq × List Traits)) (s' : σ),
      append env app (ts.map ownArg) s = (r.map fun o => (o.1, o.2.map ownArg), s') ∧
      Live.append env app (ts.map liveArg) s = (r.map fun o => (o.1, o.2.map liveArg), s') := by
  cases app with
  | fixed value => exact ⟨.ok (Seq.wrap value, ts), s, rfl, rfl⟩
  | dflt sp ctx =>
    unfold append Live.append
    dsimp only
    obtain ⟨r, s₁, h1, h2⟩ := starWidth_eq sp ctx ts s
    rw [bind_at, bind_at, h1, h2]
    rcases r with e | ⟨c₁, ts₁⟩
    · exact ⟨.error e, s₁, rfl, rfl⟩
    · simp only [Except.map]
      obtain ⟨r, s₂, h1, h2⟩ := starPrecision_eq sp c₁ ts₁ s₁
      rw [bind_at, bind_at, h1, h2]
      rcases r with e | ⟨c₂, ts₂⟩
      · exact ⟨.error e, s₂, rfl, rfl⟩
      · simp only [Except.map]
        cases ts₂ with
        | nil => exact ⟨.error (.printf (.missingArgument sp.char)), s₂, rfl, rfl⟩
        | cons t rest =>
          simp only [List.map_cons]
          rw [formatter_eq, bind_at, bind_at]
          rcases (liveArg t).formatterFor env sp c₂ s₂ with ⟨e | q, s₃⟩
          · exact ⟨.error e, s₃, rfl, rfl⟩
          · exact ⟨.ok (q, rest), s₃, rfl, rfl⟩

end OwnForms

/-- Arguments of the user's own class that answer as ordinary ones do are printed as those: a call with them ends in the
same way, leaves the world in the same state, and leaves the same arguments over. -/
theorem C109_same (env : DateEnv) (collect : Seq → Effect σ Unit) (apps : List Appender) (ts : List Traits) (s : σ) :
    ∃ (r : Res (List Traits)) (s' : σ),
      OwnForms.run env collect apps (ts.map ownArg) s = (r.map (List.map ownArg), s') ∧
      Live.run env collect apps (ts.map liveArg) s = (r.map (List.map liveArg), s') := by
  induction apps generalizing ts s with
  | nil => exact ⟨.ok ts, s, rfl, rfl⟩
  | cons a rest ih =>
    unfold OwnForms.run Live.run
    obtain ⟨r, s₁, h1, h2⟩ := OwnForms.append_same env a ts s
    rw [OwnForms.bind_at, OwnForms.bind_at, h1, h2]
    rcases r with e | ⟨q, ts₁⟩
    · exact ⟨.error e, s₁, rfl, rfl⟩
    · simp only [Except.map]
      rw [OwnForms.bind_at, OwnForms.bind_at]
      rcases collect q s₁ with ⟨e | _, s₂⟩
      · exact ⟨.error e, s₂, rfl, rfl⟩
      · exact ih ts₁ s₂

/-- The sign of a finite number comes from `isNegative()` under `%f`, `%e` and `%g`, and from `signum()` under `%a`; that
of an infinity comes from `signum()`.  For a class that overrides `isNegative()`, the two may differ. -/
theorem C109_sign (env : DateEnv) (sp : Specifier) (ctx : FormatContext) (t : Traits) (negative : Bool) (x : FloatForm) :
    OwnForms.formatterFor env sp ctx
        { (ownArg t : OwnForms.Arg σ) with asFloatForm := .of (.ok (some (ownFloat negative x))) } =
      (liveArg { t with asFloatForm := .ok (if x.isNaN || x.isInfinite || sp = .a || sp = .upperA then x
        else { x with signum := if negative then -1 else 0 }) }).formatterFor env sp ctx := by
  have hf := OwnForms.f_eq (σ := σ) ctx negative x
  have he := OwnForms.e_eq (σ := σ) ctx negative x
  have hg := OwnForms.g_eq (σ := σ) ctx negative x
  have ha := OwnForms.a_eq (σ := σ) ctx negative x
  have key : ∀ {k : OwnForms.FloatProg σ → Effect σ Seq} {r : Res Seq}, k (ownFloat negative x) = .of r →
      OwnForms.onFloat { (ownArg t : OwnForms.Arg σ) with asFloatForm := .of (.ok (some (ownFloat negative x))) } k = .of r :=
    fun h => h
  have up : ∀ {r : Res Seq}, OwnForms.upper (Effect.of r : Effect σ Seq) = .of (r >>= Seq.upperCase) := fun {r} => by
    rcases r with e | q <;> rfl
  have nan : (x.isNaN || x.isInfinite) = true →
      SeqFormatter.f ctx x = SeqFormatter.nanOrInfinity ctx x ∧ SeqFormatter.e ctx x = SeqFormatter.nanOrInfinity ctx x ∧
      SeqFormatter.g ctx x = SeqFormatter.nanOrInfinity ctx x := fun h =>
    ⟨if_pos h, if_pos h, if_pos h⟩
  by_cases h : (x.isNaN || x.isInfinite) = true
  · rw [if_pos h] at hf he hg
    rw [h]
    obtain ⟨n1, n2, n3⟩ := nan h
    rw [← n1] at hf
    rw [← n2] at he
    rw [← n3] at hg
    simp only [Bool.true_or, if_true]
    cases sp
    case f => exact key hf
    case upperF => exact (congrArg OwnForms.upper (key hf)).trans up
    case e => exact key he
    case upperE => exact (congrArg OwnForms.upper (key he)).trans up
    case g => exact key hg
    case upperG => exact (congrArg OwnForms.upper (key hg)).trans up
    case a => exact key ha
    case upperA => exact (congrArg OwnForms.upper (key ha)).trans up
    case d => exact OwnForms.formatter_eq env .d ctx t
    case u => exact OwnForms.formatter_eq env .u ctx t
    case o => exact OwnForms.formatter_eq env .o ctx t
    case x => exact OwnForms.formatter_eq env .x ctx t
    case upperX => exact OwnForms.formatter_eq env .upperX ctx t
    case s => exact OwnForms.formatter_eq env .s ctx t
    case upperS => exact OwnForms.formatter_eq env .upperS ctx t
    case t => exact OwnForms.formatter_eq env .t ctx t
    case upperT => exact OwnForms.formatter_eq env .upperT ctx t
    case c => exact OwnForms.formatter_eq env .c ctx t
    case p => exact OwnForms.formatter_eq env .p ctx t
    case percent => exact OwnForms.formatter_eq env .percent ctx t
    case n => exact OwnForms.formatter_eq env .n ctx t
  · rw [if_neg h] at hf he hg
    rw [show (x.isNaN || x.isInfinite) = false by simpa using h]
    cases sp
    case f => exact key hf
    case upperF => exact (congrArg OwnForms.upper (key hf)).trans up
    case e => exact key he
    case upperE => exact (congrArg OwnForms.upper (key he)).trans up
    case g => exact key hg
    case upperG => exact (congrArg OwnForms.upper (key hg)).trans up
    case a => exact key ha
    case upperA => exact (congrArg OwnForms.upper (key ha)).trans up
    case d => exact OwnForms.formatter_eq env .d ctx t
    case u => exact OwnForms.formatter_eq env .u ctx t
    case o => exact OwnForms.formatter_eq env .o ctx t
    case x => exact OwnForms.formatter_eq env .x ctx t
    case upperX => exact OwnForms.formatter_eq env .upperX ctx t
    case s => exact OwnForms.formatter_eq env .s ctx t
    case upperS => exact OwnForms.formatter_eq env .upperS ctx t
    case t => exact OwnForms.formatter_eq env .t ctx t
    case upperT => exact OwnForms.formatter_eq env .upperT ctx t
    case c => exact OwnForms.formatter_eq env .c ctx t
    case p => exact OwnForms.formatter_eq env .p ctx t
    case percent => exact OwnForms.formatter_eq env .percent ctx t
    case n => exact OwnForms.formatter_eq env .n ctx t

namespace OwnForms

theorem null_at {α : Type} {x : Effect σ (Option α)} {k : α → Effect σ Seq} {s s' : σ} (h : x s = (.ok none, s')) :
    (x >>= fun a => nonNull a >>= k) s = (.error .nullPointer, s') := by
  rw [bind_at, h]; rfl

theorem some_at {α : Type} {x : Effect σ (Option α)} {k : α → Effect σ Seq} {a : α} {s s' : σ}
    (h : x s = (.ok (some a), s')) : (x >>= fun a => nonNull a >>= k) s = k a s' := by
  rw [bind_at, h]; rfl

theorem ok_at {α : Type} {x : Effect σ α} {k : α → Effect σ Seq} {a : α} {s s' : σ}
    (h : x s = (.ok a, s')) : (x >>= k) s = k a s' := by
  rw [bind_at, h]

theorem upper_null {x : Effect σ Seq} {s s' : σ} (h : x s = (.error .nullPointer, s')) :
    upper x s = (.error .nullPointer, s') := by
  unfold upper
  rw [bind_at, h]

theorem special_at {x : FloatProg σ} {p q : Effect σ Seq} {s s₁ s₂ : σ} (hn : x.isNaN s = (.ok false, s₁))
    (hi : x.isInfinite s₁ = (.ok false, s₂)) : (special x >>= fun b => if b then p else q) s = q s₂ := by
  have : special x s = (.ok false, s₂) := by
    unfold special
    rw [bind_at, hn]
    exact hi
  rw [bind_at, this]
  rfl

theorem digits_null {n : IntProg σ} {ctx : FormatContext} {ask : Effect σ (Option JStr)} {zero : Res Seq}
    {k : Int → JStr → Res Seq} {i : Int} {s s₁ s' : σ} (hk : n.signum s = (.ok i, s₁))
    (hz : ¬ (i = 0 ∧ ctx.precision = 0)) (ht : ask s₁ = (.ok none, s')) :
    (n.signum >>= fun signum =>
        if signum = 0 ∧ ctx.precision = 0 then Effect.of zero
        else ask >>= fun t => nonNull t >>= fun t => .of (k signum t)) s = (.error .nullPointer, s') := by
  rw [ok_at hk, if_neg hz]
  exact null_at ht

theorem meetsNull {env : DateEnv} {ctx : FormatContext} {v : Arg σ} {s s' : σ} {sp : Specifier}
    (h : MeetsNull ctx.precision v s s' sp) : formatterFor env sp ctx v s = (.error .nullPointer, s') := by
  cases h with
  | integer hs h =>
    cases hs
    case upperX => exact upper_null (null_at h)
    all_goals exact null_at h
  | digits hs h hk hz ht =>
    cases hs
    case upperX => exact upper_null ((some_at h).trans (digits_null hk hz ht))
    all_goals exact (some_at h).trans (digits_null hk hz ht)
  | floating hs h =>
    cases hs
    case upperF => exact upper_null (null_at h)
    case upperE => exact upper_null (null_at h)
    case upperG => exact upper_null (null_at h)
    case upperA => exact upper_null (null_at h)
    all_goals exact null_at h
  | layout hs h hn hi hl =>
    cases hs
    case f =>
      rw [← six_eq] at hl
      exact (some_at h).trans ((special_at hn hi).trans (null_at hl))
    case upperF =>
      rw [← six_eq] at hl
      exact upper_null ((some_at h).trans ((special_at hn hi).trans (null_at hl)))
    case e =>
      rw [← six_eq] at hl
      exact (some_at h).trans ((special_at hn hi).trans (null_at hl))
    case upperE =>
      rw [← six_eq] at hl
      exact upper_null ((some_at h).trans ((special_at hn hi).trans (null_at hl)))
    case g =>
      rw [← general_eq] at hl
      exact (some_at h).trans ((special_at hn hi).trans (null_at hl))
    case upperG =>
      rw [← general_eq] at hl
      exact upper_null ((some_at h).trans ((special_at hn hi).trans (null_at hl)))
    case a =>
      rw [← hex_eq] at hl
      exact (some_at h).trans ((special_at hn hi).trans (null_at hl))
    case upperA =>
      rw [← hex_eq] at hl
      exact upper_null ((some_at h).trans ((special_at hn hi).trans (null_at hl)))
  | text h => exact null_at h
  | upperText h => exact upper_null (null_at h)
  | time h => exact null_at h
  | upperTime h => exact upper_null (null_at h)
  | reference h => exact null_at h

end OwnForms

/-- A `null` where an object is needed ends the call with a `NullPointerException`: a `null` number, text of a number,
layout, sequence, time or slot.  Nothing of the directive is written: the world is left as the argument's own methods left
it. -/
theorem C109_null {env : DateEnv} {collect : Seq → Effect σ Unit} {sp : Specifier} {ctx : FormatContext} {v : OwnForms.Arg σ}
    {args : List (OwnForms.Arg σ)} {rest : List Appender} {s s' : σ} (hw : ctx.width ≠ PRECEDING)
    (hp : ctx.precision ≠ PRECEDING) (h : MeetsNull ctx.precision v s s' sp) :
    OwnForms.run env collect (.dflt sp ctx :: rest) (v :: args) s = (.error .nullPointer, s') := by
  have e1 : OwnForms.starWidth sp ctx (v :: args) = .of (.ok (ctx, v :: args)) :=
    if_neg (by simpa [FormatContext.isPrecedingWidth] using hw)
  have e2 : OwnForms.starPrecision sp ctx (v :: args) = .of (.ok (ctx, v :: args)) :=
    if_neg (by simpa [FormatContext.isPrecedingPrecision] using hp)
  have e3 : OwnForms.append env (.dflt sp ctx) (v :: args) s = (.error .nullPointer, s') := by
    unfold OwnForms.append
    dsimp only
    rw [e1]
    show (OwnForms.starPrecision sp ctx (v :: args) >>= _) s = _
    rw [e2]
    show (OwnForms.formatterFor env sp ctx v >>= _) s = _
    rw [OwnForms.bind_at, OwnForms.meetsNull h]
  unfold OwnForms.run
  rw [OwnForms.bind_at, e3]

/-- What a class inherits that writes only the five methods it must: `%t` and `%T` ask it for its slot, which may be
`null`, and then refuse it; `%c` prints the low sixteen bits of its `asInt()`; `%s` prints its `asString()`, and throws if that
is `null`.  If the method that is asked throws, that is what the conversion throws. -/
theorem C109_defaults (env : DateEnv) (ctx : FormatContext) (i : Effect σ (Option (OwnForms.IntProg σ)))
    (x : Effect σ (Option (OwnForms.FloatProg σ))) (str : Effect σ (Option JStr)) (int : Effect σ Int)
    (slot : Effect σ (Option RefSlot)) (s : σ) :
    let v := OwnForms.minimal i x str int slot
    OwnForms.formatterFor env .t ctx v s =
        ((slot s).1 >>= fun _ => .error (.printf (.wrongType .noTemporal)), (slot s).2) ∧
    OwnForms.formatterFor env .upperT ctx v s =
        ((slot s).1 >>= fun _ => .error (.printf (.wrongType .noTemporal)), (slot s).2) ∧
    OwnForms.formatterFor env .c ctx v s =
        ((int s).1 >>= fun n => SeqFormatter.spaceJustify ctx (Seq.ch (n % 65536).toNat), (int s).2) ∧
    (ctx.precision = UNSET → OwnForms.formatterFor env .s ctx v s =
        ((str s).1 >>= fun o => match o with
          | none => .error .nullPointer
          | some text => SeqFormatter.spaceJustify ctx (Seq.wrap text), (str s).2)) := by
  refine ⟨?_, ?_, ?_, fun hp => ?_⟩
  · show ((slot >>= fun _ => Effect.of (.error (.printf (.wrongType .noTemporal)))) >>= _ : Effect σ Seq) s = _
    rw [OwnForms.bind_at, OwnForms.bind_at]
    rcases slot s with ⟨e | _, s'⟩ <;> rfl
  · show (((slot >>= fun _ => Effect.of (.error (.printf (.wrongType .noTemporal)))) >>= _) >>= _ : Effect σ Seq) s = _
    rw [OwnForms.bind_at, OwnForms.bind_at, OwnForms.bind_at]
    rcases slot s with ⟨e | _, s'⟩ <;> rfl
  · show ((int >>= fun i => Effect.of (.ok (toChar i))) >>= _ : Effect σ Seq) s = _
    rw [OwnForms.bind_at, OwnForms.bind_at]
    rcases int s with ⟨e | _, s'⟩ <;> rfl
  · show ((str >>= fun t => OwnForms.nonNull t >>= fun t => Effect.of (.ok (some (Seq.wrap t)))) >>= _ : Effect σ Seq) s = _
    rw [OwnForms.bind_at, OwnForms.bind_at]
    rcases str s with ⟨e | _ | text, s'⟩
    · rfl
    · rfl
    · show ((if ctx.isPrecisionSet && _ then _ else _ : Res Seq), s') = _
      rw [show ctx.isPrecisionSet = false by simp [FormatContext.isPrecisionSet, hp]]
      rfl

-- an argument with the number 1, whose every layout is "1" with the exponent "+00"
def toldOne : ArgTold where
  intForm := .ok (some ⟨.ok 1, .ok (some (js! "1")), .ok (some (js! "1")), .ok (some (js! "1")), .ok (some (js! "1"))⟩)
  floatForm := .ok (some ⟨.ok false, .ok false, .ok false, .ok 1, fun _ => .ok (some ⟨Seq.wrap (js! "1"), none⟩),
    fun _ => .ok (some ⟨Seq.wrap (js! "1"), some (Seq.wrap (js! "+00"))⟩), fun _ => .ok (some ⟨Seq.wrap (js! "1"), none⟩),
    fun _ => .ok (some ⟨Seq.wrap (js! "1"), some (Seq.wrap (js! "0"))⟩)⟩)
  temporal := .error .external
  seq := .ok (some (Seq.wrap (js! "one")))
  int := .ok 1
  char := .ok (ch! 'c')
  slot := .ok none

/-- What a conversion prints, and the calls noted. -/
def notedBy (sp : Specifier) (precision : Int) (v : ArgTold) : Res JStr × List Asked :=
  let o := OwnForms.formatterFor sampleDateEnv sp ⟨{}, UNSET, precision, none⟩ v.noted []
  (o.1.map Seq.text, o.2)

example : notedBy .d UNSET toldOne = (.ok (js! "1"), [.asIntForm, .signum, .toDecimalString]) := by decide +kernel
example : notedBy .upperX 3 toldOne = (.ok (js! "001"), [.asIntForm, .signum, .toHexString]) := by decide +kernel
example : notedBy .e UNSET toldOne = (.ok (js! "1.000000e+00"),
    [.asFloatForm, .isNaN, .isInfinite, .scientificLayout 6, .isNegative]) := by decide +kernel
example : notedBy .g 0 toldOne = (.ok (js! "1"), [.asFloatForm, .isNaN, .isInfinite, .generalLayout 1, .isNegative]) := by
  decide +kernel
example : notedBy .a UNSET toldOne = (.ok (js! "0x1p0"), [.asFloatForm, .isNaN, .isInfinite, .hexLayout 13, .signum]) := by
  decide +kernel
example : notedBy .p UNSET toldOne = (.error .nullPointer, [.ref]) := by decide +kernel
-- zero with precision 0, an infinity, a NaN, and a number that throws
example : notedBy .d 0 { toldOne with intForm := .ok (some ⟨.ok 0, .error .external, .error .external, .error .external,
    .error .external⟩) } = (.ok [], [.asIntForm, .signum]) := by decide +kernel
example : notedBy .f UNSET { toldOne with floatForm := .ok (some ⟨.ok false, .ok true, .error .external, .ok (-1),
    fun _ => .error .external, fun _ => .error .external, fun _ => .error .external, fun _ => .error .external⟩) } =
    (.ok (js! "-Infinity"), [.asFloatForm, .isNaN, .isInfinite, .isNaN, .signum]) := by decide +kernel
example : notedBy .f UNSET { toldOne with floatForm := .ok (some ⟨.ok true, .error .external, .error .external,
    .error .external, fun _ => .error .external, fun _ => .error .external, fun _ => .error .external,
    fun _ => .error .external⟩) } = (.ok (js! "NaN"), [.asFloatForm, .isNaN, .isNaN]) := by decide +kernel
-- a scientific layout without exponent: the question for the sign is left out
example : notedBy .e UNSET { toldOne with floatForm := .ok (some ⟨.ok false, .ok false, .ok false, .ok 1,
    fun _ => .ok none, fun _ => .ok (some ⟨Seq.wrap (js! "1"), none⟩), fun _ => .ok none, fun _ => .ok none⟩) } =
    (.error .nullPointer, [.asFloatForm, .isNaN, .isInfinite, .scientificLayout 6]) := by decide +kernel
-- a number that calls itself infinite at first and NaN when asked again
example : ((OwnForms.f (σ := Nat) ⟨{}, UNSET, UNSET, none⟩ ⟨fun s => (.ok (s != 0), s + 1), .of (.ok true), .of (.ok true),
    .of (.ok (-1)), fun _ => .of (.ok none), fun _ => .of (.ok none), fun _ => .of (.ok none), fun _ => .of (.ok none)⟩ 0).1.map
    Seq.text) = .ok (js! "NaN") := by decide +kernel
-- C109_sign: `isNegative()` says so, `signum()` does not
example : (notedBy .f 0 { toldOne with floatForm := toldOne.floatForm.map (Option.map fun x =>
    { x with isNegative := .ok true }) }).1 = .ok (js! "-1") := by decide +kernel
example : (notedBy .a UNSET { toldOne with floatForm := toldOne.floatForm.map (Option.map fun x =>
    { x with isNegative := .ok true }) }).1 = .ok (js! "0x1p0") := by decide +kernel
-- C109_null: the text before the directive is written, the directive is not
example : OwnForms.run sampleDateEnv (Live.Builder.collect ⟨id, fun _ t => t, fun _ => rfl⟩)
    [.fixed (js! "a"), .dflt .s ⟨{}, UNSET, UNSET, none⟩, .fixed (js! "b")]
    [OwnForms.minimal (.of (.ok none)) (.of (.ok none)) (.of (.ok none)) (.of (.ok 0)) (.of (.ok none))] [] =
    (.error .nullPointer, js! "a") := by rfl
-- C109_defaults
example : ((OwnForms.formatterFor sampleDateEnv .c ⟨{}, UNSET, UNSET, none⟩
    (OwnForms.minimal (σ := Unit) (.of (.ok none)) (.of (.ok none)) (.of (.ok none)) (.of (.ok 65601)) (.of (.ok none))) ()).1.map
    Seq.text) = .ok (js! "A") := by decide +kernel

end FastPrintf
