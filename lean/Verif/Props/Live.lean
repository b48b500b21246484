/-
C95: arguments whose methods have side effects.

The state `σ` is the whole world: the objects that the methods of the arguments look at and change, and the
target of the call.  Nothing is assumed of the methods.
-/
import Verif.Proofs.Live
import Verif.Props.Compile
import Verif.Props.Samples

namespace FastPrintf
open Spec

variable {σ : Type}

/-- **C95.**  A call that formats into a `StringBuilder` of the world, with arguments that may do anything: how it
ends and the state of the world afterwards are exactly as told by `Unfolds`. -/
theorem C95_builder (dates : DateSyntax) (env : DateEnv) (f : JStr) (ps : List Piece) (h : Reading dates f ps)
    (b : Live.Builder σ) (as : List (Live σ)) (s s' : σ) (r : Res Unit) :
    (((Live.run env b.collect (ps.map Piece.compiled) as s).1.map fun _ => ()) = r ∧
      (Live.run env b.collect (ps.map Piece.compiled) as s).2 = s') ↔
    Unfolds (onBuilder env b) ps as s r s' := by
  rw [onBuilder_eq]
  refine ⟨?_, run_live_only b.collect_fair h.ok⟩
  rintro ⟨rfl, rfl⟩
  exact run_live b.collect_fair h.ok as s

/-- **C95.**  The same for any other `Appendable`, whose `append` may throw, and may change anything. -/
theorem C95_sink (dates : DateSyntax) (env : DateEnv) (f : JStr) (ps : List Piece) (h : Reading dates f ps)
    (k : Sink σ) (as : List (Live σ)) (s s' : σ) (r : Res Unit) :
    (((Live.run env (Live.sinkCollect k) (ps.map Piece.compiled) as s).1.map fun _ => ()) = r ∧
      (Live.run env (Live.sinkCollect k) (ps.map Piece.compiled) as s).2 = s') ↔
    Unfolds (onSink env k) ps as s r s' := by
  rw [onSink_eq]
  refine ⟨?_, run_live_only (sinkCollect_fair k) h.ok⟩
  rintro ⟨rfl, rfl⟩
  exact run_live (sinkCollect_fair k) h.ok as s

/-- What `format(Args)` does, in terms of a run. -/
theorem printf_own {dates : DateSyntax} {env : DateEnv} {f : JStr} {ps : List Piece} (h : Reading dates f ps)
    (as : List (Live σ)) (w : σ) :
    ∃ n, n ≤ (ps.flatMap Piece.questions).length ∧
      (∃ ts, Answers ((ps.flatMap Piece.questions).take n) as w ts (Live.printf dates env f as w).2) ∧
      (∀ text, (Live.printf dates env f as w).1 = .ok text → n = (ps.flatMap Piece.questions).length) ∧
      ∀ ts w', Answers ((ps.flatMap Piece.questions).take n) as w ts w' →
        printf dates env f ts = (Live.printf dates env f as w).1 := by
  have hc := (compile_iff dates f _).2 ⟨ps, h, rfl⟩
  have hu := run_live (env := env) (ownBuilder σ).collect_fair h.ok (as.map Live.beside) (w, [])
  rw [← onBuilder_eq] at hu
  obtain ⟨n, hn, hex, hall, hrun⟩ := unfolds_own h.ok hu rfl
  have hp : ∀ ts, printf dates env f ts =
      match runSB env (ps.map Piece.compiled) ts [] with
      | ⟨_, .error e⟩ => .error e
      | ⟨sb, .ok _⟩ => .ok sb := by
    intro ts
    unfold printf
    rw [hc, bind_ok]
    rfl
  unfold Live.printf
  rw [hc]
  dsimp only
  unfold ownBuilder at hex hall hrun
  rcases hx : Live.run env (Live.Builder.collect ⟨Prod.snd, fun s text => (s.1, text), fun _ => rfl⟩)
    (ps.map Piece.compiled) (as.map Live.beside) (w, []) with ⟨r, s'⟩
  rw [hx] at hex hall hrun
  cases r with
  | error e =>
    refine ⟨n, hn, hex, fun text ht => (nomatch ht), fun ts w' hts => ?_⟩
    have h2 := (hrun ts w' hts).2
    rw [hp]
    rcases hy : runSB env (ps.map Piece.compiled) ts [] with ⟨sb, e' | left⟩
    · rw [show (runSB env (ps.map Piece.compiled) ts (w, []).2) = _ from hy] at h2
      cases h2; rfl
    · rw [show (runSB env (ps.map Piece.compiled) ts (w, []).2) = _ from hy] at h2
      cases h2
  | ok left =>
    refine ⟨n, hn, hex, fun _ _ => hall rfl, fun ts w' hts => ?_⟩
    obtain ⟨h1, h2⟩ := hrun ts w' hts
    rw [hp]
    rcases hy : runSB env (ps.map Piece.compiled) ts [] with ⟨sb, e' | left⟩
    · rw [show (runSB env (ps.map Piece.compiled) ts (w, []).2) = _ from hy] at h2
      cases h2
    · rw [show (runSB env (ps.map Piece.compiled) ts (w, []).2) = _ from hy] at h1
      exact congrArg Except.ok h1

/-- **C95.**  `format(Args)` returns a text exactly when the questions of the format, asked in order, one of each
argument, get answers with which ordinary arguments are formatted to that text.  The methods are called for
these questions and for nothing else. -/
theorem C95_text (dates : DateSyntax) (env : DateEnv) (f : JStr) (ps : List Piece) (h : Reading dates f ps)
    (as : List (Live σ)) (w w' : σ) (text : JStr) :
    Live.printf dates env f as w = (.ok text, w') ↔
      ∃ ts, Answers (ps.flatMap Piece.questions) as w ts w' ∧ printf dates env f ts = .ok text := by
  obtain ⟨n, hn, ⟨ts₀, h₀⟩, hfull, hall⟩ := printf_own (env := env) h as w
  constructor
  · intro hp
    rw [hp] at h₀ hfull hall
    obtain rfl := hfull text rfl
    rw [List.take_of_length_le (Nat.le_refl _)] at h₀ hall
    exact ⟨ts₀, h₀, hall ts₀ w' h₀⟩
  · rintro ⟨ts, hts, hp⟩
    obtain ⟨w₁, h₁⟩ := hts.prefix n
    have h2 := hall ts w₁ h₁
    rw [hp] at h2
    obtain rfl := hfull text h2.symm
    rw [List.take_of_length_le (Nat.le_refl _)] at h₀
    exact Prod.ext h2.symm (h₀.state hts)

/-- **C95.**  When `format(Args)` throws, some of the questions have been asked, in order and from the first on, and
these alone decide it: ordinary arguments that give these answers lead to the same exception, whatever they would
answer to the questions that were not asked. -/
theorem C95_throws (dates : DateSyntax) (env : DateEnv) (f : JStr) (ps : List Piece) (h : Reading dates f ps)
    (as : List (Live σ)) (w w' : σ) (e : Err) (hp : Live.printf dates env f as w = (.error e, w')) :
    ∃ n, n ≤ (ps.flatMap Piece.questions).length ∧
      (∃ ts, Answers ((ps.flatMap Piece.questions).take n) as w ts w') ∧
      ∀ ts, Answers ((ps.flatMap Piece.questions).take n) as w ts w' → printf dates env f ts = .error e := by
  obtain ⟨n, hn, hex, _, hall⟩ := printf_own (env := env) h as w
  rw [hp] at hex hall
  exact ⟨n, hn, hex, fun ts hts => hall ts w' hts⟩

/-- **C95.**  A format that does not compile calls no method of any argument. -/
theorem C95_malformed (dates : DateSyntax) (env : DateEnv) (f : JStr) (e : Err) (h : Compiler.compile dates f = .error e)
    (as : List (Live σ)) (w : σ) : Live.printf dates env f as w = (.error e, w) := by
  unfold Live.printf
  rw [h]

/-- **C95.**  Arguments without side effects are ordinary arguments: the call changes nothing, and returns or throws
what it returns or throws for these. -/
theorem C95_steady (dates : DateSyntax) (env : DateEnv) (f : JStr) (as : List (Live σ)) (ts : List Traits)
    (h : List.Forall₂ Steady as ts) (w : σ) :
    Live.printf dates env f as w = (printf dates env f ts, w) := by
  cases hc : Compiler.compile dates f with
  | error e =>
    rw [C95_malformed dates env f e hc as w]
    unfold printf
    rw [hc]
    rfl
  | ok apps =>
    obtain ⟨ps, hr, _⟩ := (compile_iff dates f _).1 hc
    have hans : ∀ (qs : List Question) (as : List (Live σ)) (ts : List Traits), List.Forall₂ Steady as ts →
        ∀ us w', Answers qs as w us w' → w' = w ∧ Answers qs as w ts w := by
      intro qs
      induction qs with
      | nil =>
        intro as ts hf us w' h
        cases h with
        | over _ h => exact ⟨rfl, .over _ hf.length_eq⟩
      | cons q qs ih =>
        intro as ts hf us w' h
        cases h with
        | @next _ _ _ _ _ s1 _ t ts h rest =>
          cases hf with
          | cons h1 h2 =>
            have := Gives.state h (h1 w q)
            subst this
            obtain ⟨h3, h4⟩ := ih _ _ h2 _ _ rest
            exact ⟨h3, .next (h1 _ q) h4⟩
    obtain ⟨n, hn, ⟨us, hus⟩, _, hall⟩ := printf_own (env := env) hr as w
    obtain ⟨h1, h2⟩ := hans _ as ts h us _ hus
    exact Prod.ext (hall ts w h2).symm h1

/-! ### Examples -/

/-- A number as an argument of any world. -/
def steadyInt (v : BitVec 32) : Live σ where
  asIntForm := .of (intArg v).asIntForm
  asFloatForm := .of (intArg v).asFloatForm
  asTemporal := .of (intArg v).asTemporal
  asSeq := .of (intArg v).asSeq
  asInt := .of (intArg v).asInt
  asChar := .of (intArg v).asChar
  ref := fun s => ((intArg v).ref, s)

theorem steadyInt_steady (v : BitVec 32) : Steady (steadyInt v : Live σ) (intArg v) := by
  intro s q
  cases q <;> rfl

/-- A counter: each reading counts up and gives the new value.  The state is the value. -/
def counter : Live Nat where
  asIntForm := fun s => ((intArg (BitVec.ofNat 32 (s + 1))).asIntForm, s + 1)
  asFloatForm := fun s => ((intArg (BitVec.ofNat 32 (s + 1))).asFloatForm, s + 1)
  asTemporal := fun s => (.error .illegalState, s + 1)
  asSeq := fun s => ((intArg (BitVec.ofNat 32 (s + 1))).asSeq, s + 1)
  asInt := fun s => (.ok ((s : Int) + 1), s + 1)
  asChar := fun s => (.error .external, s + 1)
  ref := fun s => (.primitive, s)

-- the same object four times: it is asked once per place, in order; the `*` comes before its value
example : Live.printf ⟨fun _ => true⟩ sampleDateEnv (js! "%d %*d %s") [counter, counter, counter, counter] 1 =
    (.ok (js! "2   4 5"), 5) := by decide +kernel
-- the third reading throws: what was counted before stays counted, and the fourth is never asked
example : Live.printf ⟨fun _ => true⟩ sampleDateEnv (js! "%d %s %c %d") [counter, counter, counter, counter] 1 =
    (.error .external, 4) := by decide +kernel
-- `%n` asks nothing, and neither does a literal
example : Live.printf ⟨fun _ => true⟩ sampleDateEnv (js! "a%nb%d") [counter, counter] 1 = (.ok (js! "ab2"), 2) := by
  decide +kernel
-- a width that is too large is found before the value is asked
example : (Live.printf ⟨fun _ => true⟩ sampleDateEnv (js! "%*d") [counter, counter] 70000).2 = 70001 := by
  decide +kernel

/-- An argument whose text is what the builder of the call holds, in angle brackets, and which also writes an
exclamation mark into that builder.  The state is the builder. -/
def scribbler : Live JStr where
  asIntForm := .of (.error .external)
  asFloatForm := .of (.error .external)
  asTemporal := .of (.error .external)
  asSeq := fun sb => (.ok (Seq.wrap (js! "<" ++ sb ++ js! ">")), sb ++ js! "!")
  asInt := .of (.error .external)
  asChar := .of (.error .external)
  ref := fun s => (.null, s)

/-- The builder is all there is. -/
def onlyBuilder : Live.Builder JStr := ⟨id, fun _ text => text, fun _ => rfl⟩

-- when it is asked, the pieces before it have been written; what it writes comes before its own text
example : (Live.run sampleDateEnv onlyBuilder.collect
    [.fixed (js! "ab"), .dflt .s ⟨{}, UNSET, UNSET, none⟩, .fixed (js! "."), .dflt .s ⟨{}, UNSET, UNSET, none⟩]
    [scribbler, scribbler] []).2 = js! "ab!<ab>.!<ab!<ab>.>" := by decide +kernel

example : Answers [.integer, .count] [counter, counter] 1 [intArg 2#32, intArg 3#32] 3 :=
  .next rfl (.next rfl (.over _ rfl))

end FastPrintf
