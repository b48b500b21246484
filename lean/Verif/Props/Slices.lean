/-
Sequences that were cut with `subSequence` any number of times: what can be observed of them, and how they print.
-/
import Verif.Proofs.Slices
import Verif.Props.Semantics
import Verif.Props.Samples

namespace FastPrintf
open Spec Own DefaultAppender

/-- A history of operations, `subSequence` of anything among them, gives what is expected of it in every observation,
and throws exactly when an argument is out of range. -/
theorem C89_history (e : SliceExpr) :
    (∀ x, e.expected = some x →
      ∃ q, e.eval = .ok q ∧ x.Seen q ∧ x.reports ≤ x.text.length ∧ (x.reports = 0 ↔ x.text = [])) ∧
    (e.expected = none → ∃ err, e.eval = .error err) := by
  have h := e.eval_spec
  constructor
  · intro x hx
    rw [hx] at h
    obtain ⟨q, q1, q2⟩ := h
    exact ⟨q, q1, q2.seen, q2.le, q2.zero⟩
  · intro hx
    rw [hx] at h
    exact h

theorem Spec.Sliced.parts_length (l : List JStr) (i j : Nat) (hij : i < j) (hj : j ≤ l.flatten.length) :
    (Sliced.parts l i j).flatten.length = j - i := by
  rw [Sliced.parts_flatten _ _ _ hij, sub, List.length_take, List.length_drop]; omega

theorem Spec.Sliced.parts_single (l : List JStr) (i j : Nat) (hij : i < j) (hj : j ≤ l.flatten.length) :
    Sliced.lastLength (Sliced.parts l i j) = j - i ↔ WithinOnePiece l i j := by
  induction l generalizing i j with
  | nil => simp at hj; omega
  | cons t l ih =>
    rw [withinOnePiece_cons]
    rw [List.flatten_cons, List.length_append] at hj
    rw [Sliced.parts]
    by_cases h1 : i < t.length
    · rw [if_pos h1]
      by_cases h2 : j ≤ t.length
      · rw [if_pos h2]
        refine ⟨fun _ => .inl h2, fun _ => ?_⟩
        simp only [Sliced.lastLength, List.getLast?_singleton, Option.getD_some, sub, List.length_take,
          List.length_drop]
        omega
      · rw [if_neg h2]
        have hg := Sliced.parts_good l 0 (j - t.length) (by omega) (by omega)
        have hb := (Sliced.lastLength_bounds hg.1 hg.2).2
        rw [Sliced.parts_length _ _ _ (by omega) (by omega)] at hb
        constructor
        · intro h
          rw [Sliced.lastLength, List.getLast?_cons_of_ne_nil hg.1] at h
          rw [Sliced.lastLength] at hb
          omega
        · rintro (h | ⟨h, _⟩ | ⟨h, _⟩) <;> omega
    · rw [if_neg h1]
      have := ih (i - t.length) (j - t.length) (by omega) (by omega)
      rw [show j - t.length - (i - t.length) = j - i by omega] at this
      rw [this]
      constructor
      · intro h; exact .inr (.inl ⟨by omega, by omega, h⟩)
      · rintro (h | ⟨_, _, h⟩ | ⟨_, h, _⟩)
        · omega
        · exact h
        · omega

/-- The characters of a slice of a sequence that reports its length rightly are the right ones; the slice reports
its length rightly exactly when it is empty, everything, or inside one of the pieces. -/
theorem C89_exact (x y : Sliced) (hx : x.Exact) (i j : Nat) (hs : x.slice i j = some y) :
    y.text = sub x.text i j ∧
    (y.Exact ↔ i = j ∨ (i = 0 ∧ j = x.text.length) ∨ WithinOnePiece x.pieces i j) := by
  unfold Sliced.slice at hs
  rw [Sliced.Exact] at hx
  split_ifs at hs with h1 h2 h3
  · cases hs
    have : i = j := by omega
    subst this
    exact ⟨by simp [Sliced.text, sub], fun _ => .inl rfl, fun _ => rfl⟩
  · cases hs
    have hi : i = 0 := by omega
    have hj : j = x.text.length := by omega
    subst hi hj
    exact ⟨by simp [sub], fun _ => .inr (.inl ⟨rfl, rfl⟩), fun _ => hx⟩
  · cases hs
    have hj : j ≤ x.pieces.flatten.length := by
      have : x.pieces.flatten.length = x.text.length := rfl
      omega
    simp only [Int.toNat_natCast]
    refine ⟨Sliced.parts_flatten _ _ _ (by omega), ?_⟩
    rw [Sliced.Exact, Sliced.text]
    simp only
    rw [Sliced.parts_length _ _ _ (by omega) hj, Sliced.parts_single _ _ _ (by omega) hj]
    constructor
    · exact fun h => .inr (.inr h)
    · rintro (h | h | h)
      · omega
      · omega
      · exact h

/-- Asking a sequence for the part from its start to its reported length gives it back with all of its characters, even
those beyond the reported length. -/
theorem C89_whole (x : Sliced) (h : 0 < x.reports) : x.slice 0 x.reports = some x := by
  unfold Sliced.slice
  rw [if_pos (by omega), if_neg (by omega), if_pos (by simp)]

theorem Spec.Sliced.Rep.spaceJustify {x : Sliced} {q : Seq} (hq : x.Rep q) (ctx : FormatContext) :
    ∃ r, SeqFormatter.spaceJustify ctx q = .ok r ∧ r.Sane ∧
      r.text = blankFill ctx.flags.leftJustify (ctx.width.toNat - x.reports) x.text := by
  obtain ⟨r, r1, r2, r3, _⟩ := SeqFormatter.spaceJustify_sane ctx hq.sane
  refine ⟨r, r1, r2, ?_⟩
  rw [r3, hq.text, hq.length, Int.toNat_natCast, blankFill]

theorem Spec.Sliced.Rep.s {x y : Sliced} {q : Seq} (hq : x.Rep q) {ctx : FormatContext} (hp : SeqFormatter.PrecOK ctx)
    {v : Traits} (hv : v.asSeq = .ok q) (hy : x.cut (SeqFormatter.precOf ctx) = some y) :
    ∃ r, SeqFormatter.s ctx v = .ok r ∧ r.Sane ∧
      r.text = blankFill ctx.flags.leftJustify (ctx.width.toNat - y.reports) y.text := by
  unfold SeqFormatter.s
  rw [hv, bind_ok]
  have hlen := hq.length
  by_cases hc : (ctx.isPrecisionSet && decide (ctx.precision < q.length)) = true
  · rw [if_pos hc]
    rw [Bool.and_eq_true, SeqFormatter.isPrecisionSet_iff, decide_eq_true_eq] at hc
    have hge : 0 ≤ ctx.precision := by
      rcases hp with h | h
      · exact absurd h hc.1
      · exact h
    have hpo : SeqFormatter.precOf ctx = some ctx.precision.toNat := by simp [SeqFormatter.precOf, hc.1]
    rw [hpo, Sliced.cut, if_pos (by omega), Int.toNat_of_nonneg hge] at hy
    obtain ⟨t, t1, t2⟩ := hq.slice hy
    rw [t1, bind_ok]
    exact t2.spaceJustify ctx
  · rw [if_neg hc]
    rw [Bool.and_eq_true, SeqFormatter.isPrecisionSet_iff, decide_eq_true_eq] at hc
    have hxy : y = x := by
      by_cases hu : ctx.precision = UNSET
      · rw [show SeqFormatter.precOf ctx = none by simp [SeqFormatter.precOf, hu], Sliced.cut] at hy
        exact (Option.some.inj hy).symm
      · have hge : ¬ ctx.precision < q.length := fun h => hc ⟨hu, h⟩
        have hpo : SeqFormatter.precOf ctx = some ctx.precision.toNat := by simp [SeqFormatter.precOf, hu]
        rw [hpo, Sliced.cut, if_neg (by omega)] at hy
        exact (Option.some.inj hy).symm
    subst hxy
    exact hq.spaceJustify ctx

/-- `%s` and `%S`: the sequence is cut only when the precision is below the length it reports, and the padding is
counted from the length that what is printed reports. -/
theorem C89_print (dates : DateSyntax) (env : DateEnv) (jdk : JdkEnv) (d : Directive) (h : d.Ok dates)
    (hp : d.Plain) (e : SliceExpr) (x : Sliced) (hx : e.expected = some x) (q : Seq) (hq : e.eval = .ok q)
    (id : Identity) (rest : List Traits) :
    ∃ y, x.cut d.prec.precision = some y ∧
      (d.conv = ch! 's' → printf dates env d.text ((Entry.ref (.seq q id)).toTraits jdk :: rest) =
        .ok (blankFill (ch! '-' ∈ d.flags) (d.width.width - y.reports) y.text)) ∧
      (d.conv = ch! 'S' → printf dates env d.text ((Entry.ref (.seq q id)).toTraits jdk :: rest) =
        .ok ((blankFill (ch! '-' ∈ d.flags) (d.width.width - y.reports) y.text).map upper)) := by
  have he := e.eval_spec
  rw [hx] at he
  obtain ⟨q', q1, hr⟩ := he
  rw [hq] at q1; cases q1
  have hcut : ∃ y, x.cut d.prec.precision = some y := by
    cases d.prec.precision with
    | none => exact ⟨x, rfl⟩
    | some p =>
      by_cases hp : p < x.reports
      · rw [Sliced.cut, if_pos hp, Sliced.slice, if_pos (by omega)]
        split_ifs
        · exact ⟨_, rfl⟩
        · exact ⟨_, rfl⟩
        · exact ⟨_, rfl⟩
      · rw [Sliced.cut, if_neg hp]; exact ⟨_, rfl⟩
  obtain ⟨y, hy⟩ := hcut
  have h1 : ((Entry.ref (.seq q id)).toTraits jdk).asSeq = .ok q := rfl
  obtain ⟨r, r1, r2, r3⟩ := hr.s hp.precOK h1 (by rw [hp.prec_eq]; exact hy)
  have hrt : r.text = blankFill (ch! '-' ∈ d.flags) (d.width.width - y.reports) y.text := by
    rw [r3, hp.width_eq]
    by_cases hm : ch! '-' ∈ d.flags <;> simp [Directive.context, flagSet, hm]
  refine ⟨y, hy, fun hc => ?_, fun hc => ?_⟩
  · have hf : formatterFor env (convOf d.conv) d.context ((Entry.ref (.seq q id)).toTraits jdk) = .ok r := by
      rw [hc]; exact r1
    rw [printf_plain_ok h hp hf r2, hrt]
  · obtain ⟨u, u1, u2, u3, _⟩ := Seq.upperCase_sane r2
    have hf : formatterFor env (convOf d.conv) d.context ((Entry.ref (.seq q id)).toTraits jdk) = .ok u := by
      rw [hc, show convOf (ch! 'S') = .upperS from rfl]
      simp only [formatterFor]
      rw [r1, bind_ok, u1]
    rw [printf_plain_ok h hp hf u2, u3, hrt]

/-- Every other conversion, `%p` aside, and every `*`, reads all of its characters, as it would those of a `String`. -/
theorem C89_reads (dates : DateSyntax) (env : DateEnv) (jdk : JdkEnv) (e : SliceExpr) (x : Sliced)
    (hx : e.expected = some x) (q : Seq) (hq : e.eval = .ok q) (id id' : Identity) :
    (∀ d : Directive, d.Ok dates → d.Plain → d.conv ≠ ch! 's' → d.conv ≠ ch! 'S' → d.conv ≠ ch! 'p' →
      ∀ rest, printf dates env d.text ((Entry.ref (.seq q id)).toTraits jdk :: rest) =
        printf dates env d.text ((Entry.ref (.string x.text id')).toTraits jdk :: rest)) ∧
    ((Entry.ref (.seq q id)).toTraits jdk).asInt = ((Entry.ref (.string x.text id')).toTraits jdk).asInt := by
  have he := e.eval_spec
  rw [hx] at he
  obtain ⟨q', q1, hr⟩ := he
  rw [hq] at q1; cases q1
  have hs := hr.seen
  have hi : ((Entry.ref (.seq q id)).toTraits jdk).asIntForm =
      ((Entry.ref (.string x.text id')).toTraits jdk).asIntForm := by
    show (q.toStr >>= _) = _
    rw [hs.toStr]; rfl
  have hf : ((Entry.ref (.seq q id)).toTraits jdk).asFloatForm =
      ((Entry.ref (.string x.text id')).toTraits jdk).asFloatForm := by
    show (q.toStr >>= _) = _
    rw [hs.toStr]; rfl
  have hc : ((Entry.ref (.seq q id)).toTraits jdk).asChar =
      ((Entry.ref (.string x.text id')).toTraits jdk).asChar := by
    show (if q.length ≥ 1 then q.charAt 0 else _) = (match x.text with | c :: _ => _ | [] => _)
    have hlen := hs.length
    cases hxt : x.text with
    | nil =>
      have := hr.zero.2 hxt
      rw [if_neg (by omega)]
    | cons c t =>
      have : x.reports ≠ 0 := fun h0 => by rw [hr.zero.1 h0] at hxt; cases hxt
      rw [if_pos (by omega)]
      exact hs.charAt 0 c (by omega) (by rw [hxt]; rfl)
  refine ⟨fun d h hp h1 h2 h3 rest => ?_, ?_⟩
  · rw [printf_plain h hp, printf_plain h hp]
    have hsp : ∀ sp, sp ≠ .s → sp ≠ .upperS → sp ≠ .p →
        formatterFor env sp d.context ((Entry.ref (.seq q id)).toTraits jdk) =
          formatterFor env sp d.context ((Entry.ref (.string x.text id')).toTraits jdk) := by
      intro sp n1 n2 n3
      cases sp <;> simp only [formatterFor, hi, hf] <;>
        first
          | rfl
          | exact absurd rfl n1
          | exact absurd rfl n2
          | exact absurd rfl n3
          | (unfold SeqFormatter.c; rw [hc])
    have hk : ∀ c ∈ convChars, (convOf c = .s → c = ch! 's') ∧ (convOf c = .upperS → c = ch! 'S') ∧
        (convOf c = .p → c = ch! 'p') := by decide
    have := hk _ h.conv
    rw [hsp _ (fun h => h1 (this.1 h)) (fun h => h2 (this.2.1 h)) (fun h => h3 (this.2.2 h))]
  · show (q.toStr >>= _) = _
    rw [hs.toStr]; rfl

/-! ### Instances -/

/-- The string "abcd" put together from two pieces of two characters. -/
def abcd : SliceExpr := .append (.leaf (.wrap (js! "ab"))) (.leaf (.wrap (js! "cd")))

/-- "abc" reports one character; with "ef" after it three; of these, `[1, 3)` is taken right. -/
example : (SliceExpr.slice abcd 0 3).expected = some ⟨[js! "ab", js! "c"], 1⟩ ∧
    (SliceExpr.append (.slice abcd 0 3) (.leaf (.wrap (js! "ef")))).expected =
      some ⟨[js! "ab", js! "c", js! "ef"], 3⟩ ∧
    (SliceExpr.slice (.append (.slice abcd 0 3) (.leaf (.wrap (js! "ef")))) 1 3).expected =
      some ⟨[js! "b", js! "c"], 1⟩ ∧
    (SliceExpr.slice (.slice abcd 0 3) 0 2).expected = none ∧
    (SliceExpr.upper (.slice (.join [.wrap (js! "xyz"), .empty, .repeated 45 2]) 1 4)).expected =
      some ⟨[js! "YZ", js! "-"], 1⟩ := by decide +kernel

/-- A slice that reports all of its characters, and one that does not. -/
example : (⟨[js! "ab", js! "cd"], 4⟩ : Sliced).Exact ∧ WithinOnePiece [js! "ab", js! "cd"] 2 4 ∧
    ¬ (⟨[js! "ab", js! "c"], 1⟩ : Sliced).Exact :=
  ⟨by unfold Sliced.Exact; decide, ⟨[js! "ab"], js! "cd", [], rfl, by decide, by decide⟩, by unfold Sliced.Exact; decide⟩

/-- The rope of the slice `[0, 3)` of "abcd". -/
def abc : Seq := (abcd.eval.bind (·.subSequence 0 3)).toOption.getD .empty

/-- A slice of a slice is refused although the characters are there; the part up to the reported length has all three
of them; and `%.1s` and `%.2s` print all three as well, `%3s` with two blanks in front. -/
theorem C89_examples :
    (SliceExpr.slice abcd 0 3).eval = .ok abc ∧ abc.toStr = .ok (js! "abc") ∧ abc.length = 1 ∧
    abc.charAt 1 = .error .indexOutOfBounds ∧ abc.indexOf (ch! 'c') = .ok 2 ∧
    abc.subSequence 0 2 = .error .indexOutOfBounds ∧
    (abc.subSequence 0 1).bind Seq.toStr = .ok (js! "abc") ∧
    [js! "%.1s", js! "%.2s", js! "%3s", js! "%c"].map (fun f =>
        printf sampleDates sampleDateEnv f [(Entry.ref (.seq abc ⟨js! "SeqArray", 1#32⟩)).toTraits sampleJdk]) =
      [.ok (js! "abc"), .ok (js! "abc"), .ok (js! "  abc"), .ok (js! "a")] := by
  refine ⟨rfl, rfl, rfl, rfl, rfl, rfl, rfl, rfl⟩

end FastPrintf
