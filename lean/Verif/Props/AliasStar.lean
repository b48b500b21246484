/-
C64 with `*`: the target of a call among its own arguments, and directives that take their width or
precision from an argument.
-/
import Verif.Props.Alias
import Verif.Props.Star

namespace FastPrintf
open Spec DefaultAppender

/-- How much of the arguments a successful directive takes. -/
theorem append_left {env : DateEnv} {sp : Specifier} {ctx : FormatContext} {xs ys : List Traits}
    (hx : xs.length = (Appender.dflt sp ctx).cost) {q : Seq} {left : List Traits}
    (h : append env sp ctx (xs ++ ys) = .ok (q, left)) : left = ys := by
  obtain ⟨r, hr⟩ := (Appender.reads env (.dflt sp ctx)).enough xs hx
  have := hr ys
  rw [Appender.append, h] at this
  cases r with
  | error e => cases this
  | ok x => cases this; rfl

theorem append_left_lt {env : DateEnv} {sp : Specifier} {ctx : FormatContext} {xs : List Traits} {q : Seq}
    {left : List Traits} (h : append env sp ctx xs = .ok (q, left)) : left.length < xs.length := by
  have hr := Appender.reads env (.dflt sp ctx)
  by_cases hl : xs.length < (Appender.dflt sp ctx).cost
  · obtain ⟨e, h1, -⟩ := hr.short xs hl
    rw [Appender.append, h] at h1; cases h1
  · have hs : xs = xs.take (Appender.dflt sp ctx).cost ++ xs.drop (Appender.dflt sp ctx).cost :=
      (List.take_append_drop _ _).symm
    rw [hs] at h
    have := append_left (by rw [List.length_take]; omega) h
    rw [this, List.length_drop]
    have : 1 ≤ (Appender.dflt sp ctx).cost := by simp [Appender.cost]
    omega

/-- One more argument for a directive that only reads a number from it. -/
theorem alias_star {env : DateEnv} (jdk : JdkEnv) (id : Identity) (step : Alias.Step) {sp : Specifier}
    {ctx ctx' : FormatContext} {v : Alias.Arg} {st : JStr}
    (h : ∀ args, append env sp ctx (v.traits jdk id st :: args) = append env sp ctx' args)
    (rest : List Appender) (args : List Alias.Arg) :
    Alias.run env jdk id step (.dflt sp ctx :: rest) (v :: args) st =
      Alias.run env jdk id step (.dflt sp ctx' :: rest) args st := by
  have hv := h (args.map (Alias.Arg.traits jdk id st))
  simp only [Alias.run, List.map_cons]
  change (match append env sp ctx (v.traits jdk id st :: _) with | .error e => _ | .ok (q, left) => _) = _
  rw [hv]
  cases hq : append env sp ctx' (args.map (Alias.Arg.traits jdk id st)) with
  | error e => rfl
  | ok r =>
    obtain ⟨q, left⟩ := r
    have hlt := append_left_lt hq
    rw [List.length_map] at hlt
    obtain ⟨k, hk⟩ : ∃ k, args.length - left.length = k + 1 := ⟨args.length - left.length - 1, by omega⟩
    have hk' : (v :: args).length - left.length = k + 2 := by rw [List.length_cons]; omega
    simp only [hk, hk', show k + 2 - 1 = k + 1 by omega, List.getElem?_cons_succ, Nat.add_sub_cancel,
      List.drop_succ_cons]

theorem alias_dir {dates : DateSyntax} {d : Directive} (h : d.Ok dates) (env : DateEnv) (jdk : JdkEnv)
    (id : Identity) (step : Alias.Step) (args : List Alias.Arg) (st : JStr) :
    Alias.format dates env jdk id step d.text args st =
      Alias.run env jdk id step [.dflt (convOf d.conv) d.context] args st := by
  unfold Alias.format
  rw [(compile_iff dates d.text _).2 ⟨_, reading_dir h, rfl⟩]
  rfl

/-- **C64 (`*` as a width).** A width of 1 to 65536 taken from an argument acts as the written one, also when
the target is among the arguments, and also when the argument read for the width is the target. -/
theorem C64_star_width (dates : DateSyntax) (env : DateEnv) (jdk : JdkEnv) (id : Identity) (step : Alias.Step)
    (d : Directive) (h : d.Ok dates) (hs : d.width = .star) (cur : JStr) (v : Alias.Arg) (w : Int) (hv : (v.traits jdk id cur).asInt = .ok w)
    (ds : JStr) (hd : WidthOk (.digits ds)) (hw : (decimalValue ds : Int) = w) (args : List Alias.Arg) :
    Alias.format dates env jdk id step d.text (v :: args) cur =
      Alias.format dates env jdk id step { d with width := .digits ds }.text args cur := by
  have hcap : decimalValue ds ≤ 65536 := hd.2.2.2
  rw [alias_dir h, alias_dir (Directive.Ok.newWidth h hd (by simp))]
  refine alias_star jdk id step (fun as => ?_) [] args
  rw [append_star (by simp [Directive.context, hs, Num.value]), hv, bind_ok, if_pos (by omega),
    setWidth_eq (.inr (.inr (by omega))), bind_ok, append_noStar (context_noStar (by simp))]
  subst hw
  rfl

/-- **C64 (`*` as a width, negative).** -/
theorem C64_star_width_negative (dates : DateSyntax) (env : DateEnv) (jdk : JdkEnv) (id : Identity)
    (step : Alias.Step) (d : Directive) (h : d.Ok dates) (hs : d.width = .star) (cur : JStr) (v : Alias.Arg) (w : Int)
    (hv : (v.traits jdk id cur).asInt = .ok w) (ds : JStr) (hd : WidthOk (.digits ds)) (hw : -(decimalValue ds : Int) = w)
    (args : List Alias.Arg) :
    Alias.format dates env jdk id step d.text (v :: args) cur =
      Alias.format dates env jdk id step { d with flags := withMinus d.flags, width := .digits ds }.text args cur := by
  have hcap : decimalValue ds ≤ 65536 := hd.2.2.2
  have hpos := width_value_pos hd
  have hwr : wrap32 (-w) = decimalValue ds := by
    rw [wrap32_small (by omega)]; omega
  rw [alias_dir h, alias_dir (Directive.Ok.newFlags h hd)]
  refine alias_star jdk id step (fun as => ?_) [] args
  rw [append_star (by simp [Directive.context, hs, Num.value]), hv, bind_ok, if_neg (by omega), hwr,
    setWidth_eq (.inr (.inr (by omega))), bind_ok, append_noStar (context_noStar (by simp)), addFlag_eq]
  simp only [Directive.context, flagSet_withMinus]
  rfl

/-- **C64 (`*` as a precision).** -/
theorem C64_star_precision (dates : DateSyntax) (env : DateEnv) (jdk : JdkEnv) (id : Identity)
    (step : Alias.Step) (d : Directive) (h : d.Ok dates) (hw : d.width ≠ .star) (hs : d.prec = .star)
    (cur : JStr) (v : Alias.Arg) (p : Int) (hv : (v.traits jdk id cur).asInt = .ok p) (ds : JStr) (hd : (Num.digits ds).Ok)
    (hp : (decimalValue ds : Int) = p) (args : List Alias.Arg) :
    Alias.format dates env jdk id step d.text (v :: args) cur =
      Alias.format dates env jdk id step { d with prec := .digits ds }.text args cur := by
  have hcap : decimalValue ds ≤ 65536 := hd.2
  have hok : { d with prec := .digits ds }.Ok dates :=
    ⟨h.flagsOk, h.noRepeat, h.width, hd, h.conv, h.date, fun _ h2 => by cases h2.2.2⟩
  rw [alias_dir h, alias_dir hok]
  refine alias_star jdk id step (fun as => ?_) [] args
  rw [append_noStar (context_noStar hw), afterWidth_star (by simp [Directive.context, hs, Num.value]), hv, bind_ok,
    if_pos (by omega), setPrecision_eq (.inr (.inr (by omega))), bind_ok,
    append_noStar (context_noStar (by exact hw)), afterWidth_noStar (context_noStarPrec (by simp))]
  subst hp
  rfl

/-- **C64 (`*` as a precision, negative).** -/
theorem C64_star_precision_negative (dates : DateSyntax) (env : DateEnv) (jdk : JdkEnv) (id : Identity)
    (step : Alias.Step) (d : Directive) (h : d.Ok dates) (hw : d.width ≠ .star) (hs : d.prec = .star)
    (cur : JStr) (v : Alias.Arg) (p : Int) (hv : (v.traits jdk id cur).asInt = .ok p) (hp : p < 0) (hok : { d with prec := .absent }.Ok dates)
    (args : List Alias.Arg) :
    Alias.format dates env jdk id step d.text (v :: args) cur =
      Alias.format dates env jdk id step { d with prec := .absent }.text args cur := by
  rw [alias_dir h, alias_dir hok]
  refine alias_star jdk id step (fun as => ?_) [] args
  rw [append_noStar (context_noStar hw), afterWidth_star (by simp [Directive.context, hs, Num.value]), hv, bind_ok,
    if_neg (by omega), setPrecision_eq (.inl rfl), bind_ok,
    append_noStar (context_noStar (by exact hw)), afterWidth_noStar (context_noStarPrec (by simp))]
  rfl

/-- **C64 (whole formats).** The pieces of a format are worked off one after the other, each with the
arguments that belong to it, on what the earlier ones left in the target. -/
theorem C64_compositional (dates : DateSyntax) (env : DateEnv) (jdk : JdkEnv) (id : Identity) (step : Alias.Step)
    (f g fg : JStr) (ps qs : List Piece) (hf : Reading dates f ps) (hg : Reading dates g qs)
    (hfg : Reading dates fg (ps ++ qs)) (xs ys : List Alias.Arg) (hx : xs.length = arity ps) (cur : JStr) :
    Alias.format dates env jdk id step fg (xs ++ ys) cur =
      match Alias.format dates env jdk id step f xs cur with
      | (st, .ok ()) => Alias.format dates env jdk id step g ys st
      | (st, .error e) => (st, .error e) := by
  have key : ∀ (as bs : List Appender) (xs : List Alias.Arg) (st : JStr),
      xs.length = (as.map Appender.cost).sum →
      Alias.run env jdk id step (as ++ bs) (xs ++ ys) st =
        match Alias.run env jdk id step as xs st with
        | (st, .ok ()) => Alias.run env jdk id step bs ys st
        | (st, .error e) => (st, .error e) := by
    intro as bs
    induction as with
    | nil =>
      intro xs st hx
      obtain rfl : xs = [] := List.length_eq_zero_iff.1 (by simpa using hx)
      rfl
    | cons a as ih =>
      intro xs st hx
      rw [List.map_cons, List.sum_cons] at hx
      rw [List.cons_append]
      cases a with
      | fixed v =>
        simp only [Alias.run]
        rcases step false (Seq.wrap v) st with ⟨st, _ | e⟩
        · exact ih xs st (by simpa [Appender.cost] using hx)
        · rfl
      | dflt sp ctx =>
        obtain ⟨x1, x2, rfl, h1⟩ : ∃ x1 x2, xs = x1 ++ x2 ∧ x1.length = (Appender.dflt sp ctx).cost :=
          ⟨xs.take _, xs.drop _, (List.take_append_drop (Appender.dflt sp ctx).cost xs).symm,
            by rw [List.length_take]; omega⟩
        have hm : (x1.map (Alias.Arg.traits jdk id st)).length = (Appender.dflt sp ctx).cost := by
          rw [List.length_map, h1]
        have hpos : 1 ≤ x1.length := by rw [h1]; simp [Appender.cost]
        obtain ⟨r, hr⟩ := (Appender.reads env (.dflt sp ctx)).enough _ hm
        have e1 : append env sp ctx ((x1 ++ x2 ++ ys).map (Alias.Arg.traits jdk id st)) =
            r.map fun q => (q, (x2 ++ ys).map (Alias.Arg.traits jdk id st)) := by
          rw [List.append_assoc, List.map_append]; exact hr _
        have e2 : append env sp ctx ((x1 ++ x2).map (Alias.Arg.traits jdk id st)) =
            r.map fun q => (q, x2.map (Alias.Arg.traits jdk id st)) := by
          rw [List.map_append]; exact hr _
        simp only [Alias.run, e1, e2]
        cases r with
        | error e => rfl
        | ok q =>
          have u1 : (x1 ++ x2 ++ ys).length - ((x2 ++ ys).map (Alias.Arg.traits jdk id st)).length = x1.length := by
            simp only [List.length_append, List.length_map]; omega
          have u2 : (x1 ++ x2).length - (x2.map (Alias.Arg.traits jdk id st)).length = x1.length := by
            simp only [List.length_append, List.length_map]; omega
          have o1 : (x1 ++ x2 ++ ys)[x1.length - 1]? = x1[x1.length - 1]? := by
            rw [List.append_assoc, List.getElem?_append_left (by omega)]
          have o2 : (x1 ++ x2)[x1.length - 1]? = x1[x1.length - 1]? := by
            rw [List.getElem?_append_left (by omega)]
          simp only [Except.map, u1, u2, o1, o2]
          rw [List.append_assoc, List.drop_left, List.drop_left]
          rcases step _ q st with ⟨st, _ | e⟩
          · exact ih x2 st (by rw [List.length_append, h1] at hx; omega)
          · rfl
  unfold Alias.format
  rw [(compile_iff dates fg _).2 ⟨_, hfg, rfl⟩, (compile_iff dates f _).2 ⟨_, hf, rfl⟩,
    (compile_iff dates g _).2 ⟨_, hg, rfl⟩]
  dsimp only
  rw [List.map_append, key _ _ _ _ (by rw [hx, cost_arity])]

/-! ### Examples -/

example : Alias.format sampleDates sampleDateEnv sampleJdk someId Alias.builderStep (js! "%*s|%-*.*s|%s")
    [.other (intArg 5), .target, .other (intArg 4), .other (intArg 1), .target, .target] (js! "ab") =
    (js! "ab   ab   |a   |ab   ab   |a   |", .ok ()) := by decide +kernel
example : Alias.format sampleDates sampleDateEnv sampleJdk someId Alias.bufferStep (js! "%*s")
    [.other (intArg (-5)), .target] (js! "ab") = (js! "abab   ", .ok ()) := by decide +kernel
-- the target in the place of a width: its text is read as a number when the directive is reached
example : Alias.format sampleDates sampleDateEnv sampleJdk someId Alias.bufferStep (js! "0%*sx%*s")
    [.target, .other (strArg (js! "a")), .target, .target] (js! "1") =
    (js! "10         ax", .error (.printf (.wrongType .textToInt))) := by decide +kernel

end FastPrintf
