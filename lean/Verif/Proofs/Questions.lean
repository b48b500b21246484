/-
A call looks at an argument only through the reading that the directive asks for.
-/
import Verif.Spec.Questions
import Verif.Proofs.Engine

namespace FastPrintf
open Spec DefaultAppender

/-- What a conversion asks, by specifier. -/
def Specifier.question : Specifier → Question
  | .d | .u | .x | .upperX | .o => .integer
  | .f | .upperF | .e | .upperE | .g | .upperG | .a | .upperA => .floating
  | .s | .upperS => .text
  | .t | .upperT => .time
  | .c => .character
  | .p => .reference
  | .percent | .n => .nothing

theorem question_conv : ∀ c ∈ convChars, question c = (convOf c).question := by decide

theorem formatterFor_same {env : DateEnv} {sp : Specifier} {ctx : FormatContext} {t t' : Traits}
    (h : SameAnswer t t' sp.question) : formatterFor env sp ctx t = formatterFor env sp ctx t' := by
  cases sp <;> simp only [SameAnswer, Specifier.question] at h <;>
    simp only [formatterFor, SeqFormatter.s, SeqFormatter.t, SeqFormatter.c, SeqFormatter.p, h]

theorem formatterFor_refuses {env : DateEnv} {sp : Specifier} {ctx : FormatContext} {t : Traits} {e : Err}
    (h : Refuses t e sp.question) : formatterFor env sp ctx t = .error e := by
  cases sp <;> simp only [Refuses, Specifier.question] at h <;>
    simp only [formatterFor, SeqFormatter.s, SeqFormatter.t, SeqFormatter.c, h] <;> rfl

/-- The same outcome, but for the arguments left, which give the same answers to `qs`. -/
def SameStep {α : Type} (qs : List Question) (x y : Res (α × List Traits)) : Prop :=
  (∃ e, x = .error e ∧ y = .error e) ∨
    ∃ a as bs, x = .ok (a, as) ∧ y = .ok (a, bs) ∧ Agree qs as bs

theorem SameStep.bind {α β : Type} {qs qs' : List Question} {x y : Res (α × List Traits)}
    {f g : α × List Traits → Res (β × List Traits)} (h : SameStep qs x y)
    (hf : ∀ a as bs, x = .ok (a, as) → Agree qs as bs → SameStep qs' (f (a, as)) (g (a, bs))) :
    SameStep qs' (x >>= f) (y >>= g) := by
  rcases h with ⟨e, h1, h2⟩ | ⟨a, as, bs, h1, h2, h3⟩
  · rw [h1, h2]; exact .inl ⟨e, rfl, rfl⟩
  · have := hf a as bs h1 h3
    rw [h1, h2]; exact this

theorem nextInt_same {qs : List Question} {as bs : List Traits} (h : Agree (.count :: qs) as bs) :
    SameStep qs (nextInt sp as) (nextInt sp bs) := by
  cases h with
  | short => exact .inl ⟨_, rfl, rfl⟩
  | @next _ _ t t' as bs h rest =>
    simp only [nextInt, show t.asInt = t'.asInt from h]
    cases t'.asInt with
    | error e => exact .inl ⟨e, rfl, rfl⟩
    | ok n => exact .inr ⟨n, as, bs, rfl, rfl, rest⟩

/-- One question for a `*`. -/
def starQuestion (v : Int) : List Question := if v = PRECEDING then [.count] else []

theorem starWidth_same {ctx : FormatContext} {qs : List Question} {as bs : List Traits}
    (h : Agree (starQuestion ctx.width ++ qs) as bs) : SameStep qs (starWidth sp ctx as) (starWidth sp ctx bs) := by
  unfold starWidth starQuestion at *
  by_cases hp : ctx.isPrecedingWidth = true
  · have hw : ctx.width = PRECEDING := by simpa [FormatContext.isPrecedingWidth] using hp
    rw [if_pos hw] at h
    rw [if_pos hp, if_pos hp]
    refine (nextInt_same h).bind fun w as bs _ h => ?_
    dsimp only
    split_ifs
    · cases ctx.setWidth w with
      | error e => exact .inl ⟨e, rfl, rfl⟩
      | ok c => exact .inr ⟨c, as, bs, rfl, rfl, h⟩
    · cases (ctx.addFlag .leftJustify).setWidth (wrap32 (-w)) with
      | error e => exact .inl ⟨e, rfl, rfl⟩
      | ok c => exact .inr ⟨c, as, bs, rfl, rfl, h⟩
  · have hw : ¬ ctx.width = PRECEDING := by simpa [FormatContext.isPrecedingWidth] using hp
    rw [if_neg hw] at h
    rw [if_neg hp, if_neg hp]
    exact .inr ⟨ctx, as, bs, rfl, rfl, h⟩

theorem starPrecision_same {ctx : FormatContext} {qs : List Question} {as bs : List Traits}
    (h : Agree (starQuestion ctx.precision ++ qs) as bs) :
    SameStep qs (starPrecision sp ctx as) (starPrecision sp ctx bs) := by
  unfold starPrecision starQuestion at *
  by_cases hp : ctx.isPrecedingPrecision = true
  · have hw : ctx.precision = PRECEDING := by simpa [FormatContext.isPrecedingPrecision] using hp
    rw [if_pos hw] at h
    rw [if_pos hp, if_pos hp]
    refine (nextInt_same h).bind fun w as bs _ h => ?_
    dsimp only
    cases ctx.setPrecision (if w ≥ 0 then w else UNSET) with
    | error e => exact .inl ⟨e, rfl, rfl⟩
    | ok c => exact .inr ⟨c, as, bs, rfl, rfl, h⟩
  · have hw : ¬ ctx.precision = PRECEDING := by simpa [FormatContext.isPrecedingPrecision] using hp
    rw [if_neg hw] at h
    rw [if_neg hp, if_neg hp]
    exact .inr ⟨ctx, as, bs, rfl, rfl, h⟩

theorem valueStep_same {env : DateEnv} {sp : Specifier} {ctx : FormatContext} {qs : List Question}
    {as bs : List Traits} (h : Agree (sp.question :: qs) as bs) :
    SameStep qs (valueStep env sp ctx as) (valueStep env sp ctx bs) := by
  cases h with
  | short => exact .inl ⟨_, rfl, rfl⟩
  | @next _ _ t t' as bs h rest =>
    simp only [valueStep, formatterFor_same h]
    cases formatterFor env sp ctx t' with
    | error e => exact .inl ⟨e, rfl, rfl⟩
    | ok s => exact .inr ⟨s, as, bs, rfl, rfl, rest⟩

/-- What a compiled piece asks. -/
def Appender.questions : Appender → List Question
  | .fixed _ => []
  | .dflt sp ctx => starQuestion ctx.width ++ starQuestion ctx.precision ++ [sp.question]

theorem Appender.append_same {env : DateEnv} {a : Appender} {qs : List Question} {as bs : List Traits}
    (h : Agree (a.questions ++ qs) as bs) : SameStep qs (a.append env as) (a.append env bs) := by
  cases a with
  | fixed t => exact .inr ⟨_, as, bs, rfl, rfl, h⟩
  | dflt sp ctx =>
    simp only [Appender.append, append_eq]
    simp only [Appender.questions, List.append_assoc, List.cons_append, List.nil_append] at h
    refine (starWidth_same h).bind fun c as bs hc h => ?_
    rw [← starWidth_precision hc] at h
    exact (starPrecision_same h).bind fun c as bs _ h => valueStep_same h

theorem runSB_same {env : DateEnv} {apps : List Appender} {as bs : List Traits} (sb : JStr)
    (h : Agree (apps.flatMap Appender.questions) as bs) :
    (runSB env apps as sb).target = (runSB env apps bs sb).target ∧
      ((runSB env apps as sb).result.map fun _ => ()) = (runSB env apps bs sb).result.map fun _ => () := by
  induction apps generalizing as bs sb with
  | nil => exact ⟨rfl, rfl⟩
  | cons a apps ih =>
    rw [List.flatMap_cons] at h
    simp only [runSB]
    rcases a.append_same (env := env) h with ⟨e, h1, h2⟩ | ⟨q, as', bs', h1, h2, h3⟩
    · rw [h1, h2]; exact ⟨rfl, rfl⟩
    · rw [h1, h2]
      dsimp only
      cases q.appendToSB sb with
      | error e => exact ⟨rfl, rfl⟩
      | ok sb => exact ih sb h3

theorem runSink_same {env : DateEnv} {σ : Type} (k : Sink σ) {apps : List Appender} {as bs : List Traits}
    (st : σ) (h : Agree (apps.flatMap Appender.questions) as bs) :
    (runSink env k apps as st).target = (runSink env k apps bs st).target ∧
      ((runSink env k apps as st).result.map fun _ => ()) =
        (runSink env k apps bs st).result.map fun _ => () := by
  induction apps generalizing as bs st with
  | nil => exact ⟨rfl, rfl⟩
  | cons a apps ih =>
    rw [List.flatMap_cons] at h
    simp only [runSink]
    rcases a.append_same (env := env) h with ⟨e, h1, h2⟩ | ⟨q, as', bs', h1, h2, h3⟩
    · rw [h1, h2]; exact ⟨rfl, rfl⟩
    · rw [h1, h2]
      dsimp only
      cases q.appendToCalls with
      | error e => exact ⟨rfl, rfl⟩
      | ok calls =>
        dsimp only
        generalize k.feed st calls = r
        obtain ⟨st', b⟩ := r
        cases b with
        | true => exact ih st' h3
        | false => exact ⟨rfl, rfl⟩

theorem Piece.questions_compiled {dates : DateSyntax} {p : Piece} (h : p.Ok dates) :
    p.compiled.questions = p.questions := by
  cases p with
  | lit s => rfl
  | percent => rfl
  | dir d =>
    have hs : ∀ n : Num, starQuestion n.value = if n = .star then [.count] else [] := by
      intro n
      cases n with
      | absent => rfl
      | star => rfl
      | digits ds =>
        have : ¬ (Num.digits ds).value = PRECEDING := by
          simp only [Num.value, PRECEDING, intMin]; omega
        simp [starQuestion, this]
    simp only [Piece.compiled, Appender.questions, Piece.questions, hs, question_conv d.conv h.conv]

theorem questions_compiled {dates : DateSyntax} {f : JStr} {ps : List Piece} (h : Reading dates f ps) :
    (ps.map Piece.compiled).flatMap Appender.questions = ps.flatMap Piece.questions := by
  have := h.ok
  clear h
  induction ps with
  | nil => rfl
  | cons p ps ih =>
    rw [List.map_cons, List.flatMap_cons, List.flatMap_cons, ih fun p hp => this p (by simp [hp]),
      Piece.questions_compiled (this p (by simp))]

/-- The first question of a piece is answered by an exception. -/
theorem Appender.append_refuses {env : DateEnv} {a : Appender} {q : Question} {qs : List Question}
    (ha : a.questions = q :: qs) {t : Traits} {e : Err} (h : Refuses t e q) (rest : List Traits) :
    a.append env (t :: rest) = .error e := by
  cases a with
  | fixed s => cases ha
  | dflt sp ctx =>
    simp only [Appender.questions, starQuestion] at ha
    simp only [Appender.append, append_eq]
    by_cases hw : ctx.width = PRECEDING
    · rw [if_pos hw] at ha
      cases ha
      have hp : ctx.isPrecedingWidth = true := by simpa [FormatContext.isPrecedingWidth] using hw
      unfold starWidth
      rw [if_pos hp]
      simp only [nextInt, show t.asInt = .error e from h]
      rfl
    · have hp : ¬ ctx.isPrecedingWidth = true := by simpa [FormatContext.isPrecedingWidth] using hw
      rw [if_neg hw] at ha
      unfold starWidth
      rw [if_neg hp, bind_ok]
      dsimp only
      by_cases hw : ctx.precision = PRECEDING
      · rw [if_pos hw] at ha
        cases ha
        have hp : ctx.isPrecedingPrecision = true := by simpa [FormatContext.isPrecedingPrecision] using hw
        unfold starPrecision
        rw [if_pos hp]
        simp only [nextInt, show t.asInt = .error e from h]
        rfl
      · rw [if_neg hw] at ha
        cases ha
        have hp : ¬ ctx.isPrecedingPrecision = true := by
          simpa [FormatContext.isPrecedingPrecision] using hw
        unfold starPrecision
        rw [if_neg hp, bind_ok]
        simp only [valueStep, formatterFor_refuses h]
        rfl

end FastPrintf
