/-
C74: what a target holds when a sequence throws while it is written.

The text of a `Seq.lazy` is produced by user code when the sequence is written; the same holds for a
`CharSequence` of a foreign class.  If that code throws, part of the directive may have been written.
-/
import Verif.Props.Foreign
import Verif.Props.Engine

namespace FastPrintf
open Spec DefaultAppender

/-- An argument whose sequence has the length `n` and throws `e` when it is written, having put `out` into a
`StringBuilder`. -/
def Spec.Throws (v : Traits) (out : JStr) (n : Nat) (e : Err) : Prop :=
  2 ≤ n ∧ v.asSeq = .ok (.atom (.failing out n e))

/-- **C74 (in general).** Whatever the arguments are: when a run on a builder throws, the builder holds its old
text, the text of the pieces before the one that failed and, if that one failed while it was written, what it had
written by then. -/
theorem C74_in_general (env : DateEnv) (apps : List Appender) (args : List Traits) (sb t : JStr) (e : Err)
    (h : runSB env apps args sb = ⟨t, .error e⟩) :
    ∃ done a todo rest t0 new, apps = done ++ a :: todo ∧ runSB env done args sb = ⟨t0, .ok rest⟩ ∧
      t = t0 ++ new ∧ sb <+: t0 ∧
      ((a.append env rest = .error e ∧ new = []) ∨
        ∃ q rest', a.append env rest = .ok (q, rest') ∧ q.appendToSB [] = .error e ∧
          new = q.leftInSB []) := by
  induction apps generalizing args sb with
  | nil => cases h
  | cons a apps ih =>
    cases ha : a.append env args with
    | error e' =>
      simp only [runSB, ha] at h
      injection h with ht he
      injection he with he
      subst ht he
      exact ⟨[], a, apps, args, sb, [], rfl, rfl, by simp, List.prefix_rfl, .inl ⟨ha, rfl⟩⟩
    | ok r =>
      obtain ⟨q, rest⟩ := r
      simp only [runSB, ha] at h
      have hpre := Seq.appendToSB_prefix q sb
      cases hq : q.appendToSB [] with
      | error e' =>
        rw [hq] at hpre
        simp only [hpre, Except.map] at h
        injection h with ht he
        injection he with he
        subst ht he
        exact ⟨[], a, apps, args, sb, q.leftInSB [], rfl, rfl, Seq.leftInSB_prefix q sb,
          List.prefix_rfl, .inr ⟨q, rest, ha, hq, rfl⟩⟩
      | ok x =>
        rw [hq] at hpre
        simp only [hpre, Except.map] at h
        obtain ⟨dn, b, todo, rest', t0, new, g1, g2, g3, g4, g5⟩ := ih rest (sb ++ x) h
        refine ⟨a :: dn, b, todo, rest', t0, new, by rw [g1]; rfl, ?_, g3,
          (List.prefix_append sb x).trans g4, g5⟩
        simp only [runSB, ha, hpre, Except.map]
        exact g2

/-! ### `%s` and `%S` of a sequence that throws -/

/-- The padding before a field, as a leaf. -/
theorem pad_leaf {k : Int} (h : 1 ≤ k) : ∃ a : Atomic, Seq.repeated 32 k = .ok (.atom a) ∧
    (a.length : Int) = k ∧ a ≠ .empty ∧
    (∀ sb, a.appendToSB sb = .ok (sb ++ List.replicate k.toNat 32)) ∧
    a.appendToCalls = .ok (List.replicate k.toNat [32]) ∧ ∃ b, a.upperCase = .ok b := by
  obtain ⟨a, h1, h2, h3⟩ := Atomic.mkRepeated_ok (c := 32) h
  refine ⟨a, by simp [Seq.repeated, h1], ?_⟩
  unfold Atomic.mkRepeated at h1
  rw [if_pos h] at h1
  split at h1 <;> injection h1 with h1 <;> subst h1
  · rename_i hk
    subst hk
    exact ⟨rfl, by decide, fun _ => rfl, rfl, ⟨_, rfl⟩⟩
  · refine ⟨?_, ?_, fun _ => rfl, rfl, ⟨.repeated 32 k.toNat, ?_⟩⟩
    · simp only [Atomic.length]; omega
    · simp
    · rfl

theorem leaves_two (a b : Atomic) : (Seq.concat0 (.atom a) (.atom b)).leaves = .ok [a, b] := by
  rfl

theorem failing_s {d : Directive} (hp : d.Plain) {v : Traits} {out : JStr} {n : Nat} {e : Err}
    (hv : Throws v out n e) :
    ((∀ p, d.prec.precision = some p → n ≤ p) →
      ∃ q, SeqFormatter.s d.context v = .ok q ∧
        (∀ sb, q.appendToSB sb = .error e) ∧
        (∀ sb, q.leftInSB sb =
          sb ++ (if ch! '-' ∈ d.flags then [] else List.replicate (d.width.width - n) 32) ++ out) ∧
        q.appendToCalls = .error e ∧
        q.callsBefore = (if ch! '-' ∈ d.flags then [] else List.replicate (d.width.width - n) [32]) ∧
        q.upperCase = .error e) ∧
    ((∃ p, d.prec.precision = some p ∧ p < n) → SeqFormatter.s d.context v = .error e) := by
  obtain ⟨h2, hs⟩ := hv
  have hprec := hp.prec_eq
  have hok := hp.precOK
  have e1 : UNSET = -1 := rfl
  have hset : d.context.isPrecisionSet = (d.context.precision != UNSET) := rfl
  have hlen : (Seq.atom (.failing out n e)).length = (n : Int) := rfl
  constructor
  · intro hle
    have hnot : ¬ ((d.context.isPrecisionSet && d.context.precision < (n : Int)) = true) := by
      rw [hset]
      unfold SeqFormatter.precOf at hprec
      by_cases hu : d.context.precision = UNSET
      · simp [hu]
      · rw [if_neg hu] at hprec
        have := hle _ hprec.symm
        have hnn : 0 ≤ d.context.precision := by
          rcases hok with h | h
          · exact absurd h hu
          · exact h
        simp; omega
    have hsj : SeqFormatter.s d.context v =
        SeqFormatter.spaceJustify d.context (.atom (.failing out n e)) := by
      unfold SeqFormatter.s
      rw [hs, bind_ok, if_neg (by rw [hlen]; exact hnot)]
    rw [hsj]
    have hw := SeqFormatter.width_toNat d.context
    have hww := hp.width_eq
    have hflag : d.context.hasFlag .leftJustify = true ↔ ch! '-' ∈ d.flags := by
      rw [SeqFormatter.hasFlag_left, left_eq, decide_eq_true_iff]
    unfold SeqFormatter.spaceJustify
    rw [hlen]
    by_cases hgt : SeqFormatter.width d.context > (n : Int)
    · rw [if_pos hgt]
      obtain ⟨a, ha, hal, hne, hsb, hcalls, b, hup⟩ :=
        pad_leaf (k := SeqFormatter.width d.context - (n : Int)) (by omega)
      have hk : (SeqFormatter.width d.context - (n : Int)).toNat = d.width.width - n := by omega
      rw [hk] at hsb hcalls
      have hemp : (Seq.atom a).isEmpty = false := by
        simp only [Seq.isEmpty, Seq.length, beq_eq_false_iff_ne]; omega
      simp only [ha, bind_ok]
      by_cases hf : ch! '-' ∈ d.flags
      · rw [if_pos (hflag.mpr hf)]
        refine ⟨Seq.concat0 (.atom (.failing out n e)) (.atom a), ?_, ?_, ?_, ?_, ?_, ?_⟩
        · simp [Seq.append, hemp, Seq.mkConcat, pure_eq_ok]
        · intro sb
          simp only [Seq.concat0, Seq.appendToSB]
          rw [← Seq.concat0, leaves_two]; rfl
        · intro sb
          rw [if_pos hf]
          simp only [Seq.concat0, Seq.leftInSB]
          rw [← Seq.concat0, leaves_two]
          simp [Seq.leavesSBLeft, Atomic.appendToSB, Atomic.written]
        · simp only [Seq.concat0, Seq.appendToCalls]
          rw [← Seq.concat0, leaves_two]; rfl
        · rw [if_pos hf]
          simp only [Seq.concat0, Seq.callsBefore]
          rw [← Seq.concat0, leaves_two]; rfl
        · simp only [Seq.concat0, Seq.upperCase]
          rw [← Seq.concat0, leaves_two]; rfl
      · rw [if_neg (fun h => hf (hflag.mp h))]
        refine ⟨Seq.concat0 (.atom a) (.atom (.failing out n e)), ?_, ?_, ?_, ?_, ?_, ?_⟩
        · simp [Seq.prepend, hemp, Seq.mkConcat, pure_eq_ok]
        · intro sb
          simp only [Seq.concat0, Seq.appendToSB]
          rw [← Seq.concat0, leaves_two]
          simp only [bind_ok, Seq.appendLeavesSB, hsb]; rfl
        · intro sb
          rw [if_neg hf]
          simp only [Seq.concat0, Seq.leftInSB]
          rw [← Seq.concat0, leaves_two]
          simp only [Seq.leavesSBLeft, hsb]
          simp [Atomic.appendToSB, Atomic.written]
        · simp only [Seq.concat0, Seq.appendToCalls]
          rw [← Seq.concat0, leaves_two]
          simp only [bind_ok, Seq.leavesCalls, hcalls]; rfl
        · rw [if_neg hf]
          simp only [Seq.concat0, Seq.callsBefore]
          rw [← Seq.concat0, leaves_two]
          simp only [Seq.leavesCallsBefore, hcalls]
          simp [Atomic.appendToCalls]
        · simp only [Seq.concat0, Seq.upperCase]
          rw [← Seq.concat0, leaves_two]
          simp only [bind_ok, List.mapM_cons, hup]; rfl
    · rw [if_neg hgt]
      have hk : d.width.width - n = 0 := by omega
      refine ⟨.atom (.failing out n e), rfl, fun _ => rfl, ?_, rfl, ?_, rfl⟩
      · intro sb; simp [Seq.leftInSB, Atomic.written, hk]
      · simp [Seq.callsBefore, hk]
  · rintro ⟨p, hpp, hlt⟩
    rw [hpp] at hprec
    unfold SeqFormatter.precOf at hprec
    by_cases hu : d.context.precision = UNSET
    · rw [if_pos hu] at hprec; cases hprec
    · rw [if_neg hu] at hprec
      injection hprec with hprec
      have hnn : 0 ≤ d.context.precision := by
        rcases hok with h | h
        · exact absurd h hu
        · exact h
      unfold SeqFormatter.s
      rw [hs, bind_ok, hlen, if_pos (by rw [hset]; simp [hu]; omega)]
      simp only [Seq.subSequence, Atomic.subSequence]
      rw [checkPositionIndexes_ok ⟨by omega, by omega, by omega⟩]
      rfl

/-- The step of one `%s` or `%S`. -/
theorem plain_step {d : Directive} (hp : d.Plain) (env : DateEnv) (v : Traits) (rest : List Traits) :
    Appender.append env (.dflt (convOf d.conv) d.context) (v :: rest) =
      (formatterFor env (convOf d.conv) d.context v).map (·, rest) := by
  show append env _ _ _ = _
  rw [append_noStar hp.width_ne, afterWidth_noStar hp.prec_ne]
  rfl

/-- The blanks that come before a field of `n` characters. -/
def Spec.blanks (d : Directive) (n : Nat) : Nat :=
  if ch! '-' ∈ d.flags then 0 else d.width.width - n

/-- The precision of the directive cuts nothing off `n` characters. -/
def Spec.KeepsAll (d : Directive) (n : Nat) : Prop := ∀ p, d.prec.precision = some p → n ≤ p

instance (d : Directive) (n : Nat) : Decidable (KeepsAll d n) :=
  match h : d.prec.precision with
  | none => isTrue (by intro p hp; rw [h] at hp; cases hp)
  | some p => if hn : n ≤ p then isTrue (by intro q hq; rw [h] at hq; cases hq; exact hn)
    else isFalse (fun hk => hn (hk p h))

/-- **C74.**  A `%s` of a sequence that throws while it is written, in a run on a builder.  What came before stays;
the blanks of a right-justified field and the part of the text that the sequence produced stay too.  A directive
that has to cut or to upper-case the text asks for it before it writes anything. -/
theorem C74_builder (dates : DateSyntax) (env : DateEnv) (format : JStr) (before after : List Piece) (d : Directive)
    (hr : Reading dates format (before ++ .dir d :: after)) (hp : d.Plain)
    (args rest : List Traits) (v : Traits) (out : JStr) (n : Nat) (e : Err) (hv : Throws v out n e) (sb t : JStr)
    (hb : runSB env (before.map Piece.compiled) args sb = ⟨t, .ok (v :: rest)⟩) :
    ∃ apps, Compiler.compile dates format = .ok apps ∧
      (d.conv = ch! 's' → runSB env apps args sb =
        ⟨if KeepsAll d n then t ++ List.replicate (blanks d n) (ch! ' ') ++ out else t, .error e⟩) ∧
      (d.conv = ch! 'S' → runSB env apps args sb = ⟨t, .error e⟩) := by
  refine ⟨_, (compile_iff _ _ _).mpr ⟨_, hr, rfl⟩, ?_⟩
  rw [List.map_append, List.map_cons, runSB_append, hb]
  show (_ → runSB env (.dflt (convOf d.conv) d.context :: _) (v :: rest) t = _) ∧
    (_ → runSB env (.dflt (convOf d.conv) d.context :: _) (v :: rest) t = _)
  obtain ⟨f1, f2⟩ := failing_s hp hv
  have hcut : ¬ KeepsAll d n → SeqFormatter.s d.context v = .error e := by
    intro hk
    apply f2
    unfold KeepsAll at hk
    push Not at hk
    exact hk
  simp only [runSB, plain_step hp]
  constructor
  · intro hc
    rw [hc, show convOf (ch! 's') = .s from rfl]
    simp only [formatterFor]
    by_cases hk : KeepsAll d n
    · obtain ⟨q, q1, q2, q3, -, -, -⟩ := f1 hk
      rw [q1, if_pos hk]
      simp only [Except.map, q2, q3, blanks]
      split <;> simp
    · rw [hcut hk, if_neg hk]; rfl
  · intro hc
    rw [hc, show convOf (ch! 'S') = .upperS from rfl]
    simp only [formatterFor]
    by_cases hk : KeepsAll d n
    · obtain ⟨q, q1, -, -, -, -, q6⟩ := f1 hk
      rw [q1, bind_ok, q6]; rfl
    · rw [hcut hk]; rfl

theorem runSink_append (env : DateEnv) {σ : Type} (k : Sink σ) (as bs : List Appender) (args : List Traits) (st : σ) :
    runSink env k (as ++ bs) args st = (runSink env k as args st).andThen (runSink env k bs) := by
  induction as generalizing args st with
  | nil => rfl
  | cons a as ih =>
    rw [List.cons_append]
    unfold runSink
    cases a.append env args with
    | error e => rfl
    | ok r =>
      obtain ⟨q, rest⟩ := r
      dsimp only
      cases q.appendToCalls with
      | error e =>
        dsimp only
        cases k.feed st q.callsBefore with
        | mk st' b => cases b <;> rfl
      | ok calls =>
        dsimp only
        cases k.feed st calls with
        | mk st' b =>
          cases b with
          | false => rfl
          | true => exact ih rest st'

/-- **C74.**  The same on any other `Appendable`: it is given the blanks before the field, one at a time, and nothing
of the text. -/
theorem C74_appendable (dates : DateSyntax) (env : DateEnv) (format : JStr) (before after : List Piece)
    (d : Directive) (hr : Reading dates format (before ++ .dir d :: after)) (hp : d.Plain)
    (args rest : List Traits) (v : Traits) (out : JStr) (n : Nat) (e : Err) (hv : Throws v out n e)
    {σ : Type} (k : Sink σ) (st t : σ)
    (hb : runSink env k (before.map Piece.compiled) args st = ⟨t, .ok (v :: rest)⟩) :
    ∃ apps, Compiler.compile dates format = .ok apps ∧
      (d.conv = ch! 's' → runSink env k apps args st =
        if KeepsAll d n then
          ⟨(k.feed t (List.replicate (blanks d n) (js! " "))).1,
            .error (if (k.feed t (List.replicate (blanks d n) (js! " "))).2 then e else .uncheckedIO)⟩
        else ⟨t, .error e⟩) ∧
      (d.conv = ch! 'S' → runSink env k apps args st = ⟨t, .error e⟩) := by
  refine ⟨_, (compile_iff _ _ _).mpr ⟨_, hr, rfl⟩, ?_⟩
  rw [List.map_append, List.map_cons, runSink_append, hb]
  show (_ → runSink env k (.dflt (convOf d.conv) d.context :: _) (v :: rest) t = _) ∧
    (_ → runSink env k (.dflt (convOf d.conv) d.context :: _) (v :: rest) t = _)
  obtain ⟨f1, f2⟩ := failing_s hp hv
  have hcut : ¬ KeepsAll d n → SeqFormatter.s d.context v = .error e := by
    intro hk
    apply f2
    unfold KeepsAll at hk
    push Not at hk
    exact hk
  simp only [runSink, plain_step hp]
  constructor
  · intro hc
    rw [hc, show convOf (ch! 's') = .s from rfl]
    simp only [formatterFor]
    by_cases hk : KeepsAll d n
    · obtain ⟨q, q1, -, -, q4, q5, -⟩ := f1 hk
      rw [q1, if_pos hk]
      have hb : q.callsBefore = List.replicate (blanks d n) [32] := by
        rw [q5]; unfold blanks; split <;> simp
      simp only [Except.map, q4, hb]
      cases k.feed t (List.replicate (blanks d n) [32]) with
      | mk st' b => cases b <;> rfl
    · rw [hcut hk, if_neg hk]; rfl
  · intro hc
    rw [hc, show convOf (ch! 'S') = .upperS from rfl]
    simp only [formatterFor]
    by_cases hk : KeepsAll d n
    · obtain ⟨q, q1, -, -, -, -, q6⟩ := f1 hk
      rw [q1, bind_ok, q6]; rfl
    · rw [hcut hk]; rfl

/-! ### Who throws -/

/-- **C74.**  A `Seq.lazy(action, n)` whose action throws is such an argument if `n` is at least 2, and the other
conversions get the exception when they ask for its text.  With `n = 1` the action runs, and throws, in `Seq.lazy`
itself; with `n = 0` it never runs. -/
theorem C74_lazy (jdk : JdkEnv) (out : JStr) (n : Nat) (e : Err) (id : Identity) :
    (2 ≤ n → ∃ a, Atomic.mkFailing out n e = .ok a ∧
      Throws ((Entry.ref (.seq (.atom a) id)).toTraits jdk) out n e ∧
      ∀ k ∈ [Question.count, .integer, .floating, .character],
        Refuses ((Entry.ref (.seq (.atom a) id)).toTraits jdk) e k) ∧
    (n = 1 → Atomic.mkFailing out n e = .error e) ∧
    (n = 0 → Atomic.mkFailing out n e = .ok .empty) := by
  refine ⟨?_, ?_, ?_⟩
  · intro h
    refine ⟨.failing out n e, ?_, ⟨h, rfl⟩, ?_⟩
    · unfold Atomic.mkFailing
      rw [if_pos (by omega), if_neg (by omega), if_neg (by omega), Int.toNat_natCast]
    · have hc : checkPositionIndex 0 (n : Int) = .ok () := by
        unfold checkPositionIndex; rw [if_neg]; omega
      intro k hk
      simp only [List.mem_cons, List.not_mem_nil, or_false] at hk
      rcases hk with rfl | rfl | rfl | rfl
      · rfl
      · rfl
      · rfl
      · show (if (Seq.atom (.failing out n e)).length ≥ 1 then (Seq.atom (.failing out n e)).charAt 0 else _) = _
        rw [if_pos (by show (n : Int) ≥ 1; omega)]
        simp only [Seq.charAt, Atomic.charAt, hc]; rfl
  · rintro rfl; rfl
  · rintro rfl; rfl

/-- **C74.**  So is a `CharSequence` of a foreign class that answers `length()` with `n ≥ 2` and throws in `charAt`. -/
theorem C74_foreign (jdk : JdkEnv) (q : ForeignSeq) (id : Identity) (n k : Nat) (e : Err) (h2 : 2 ≤ n)
    (hn : q.length = .ok n) (he : q.charAt k = .error e)
    (hi : ∀ i < k, ∃ c, q.charAt i = .ok c) (hk : k < n) :
    Throws (q.traits jdk id) q.left n e :=
  ⟨h2, ((C68_exceptions jdk q id).2.2.2 n k e hn hk he hi).2.1 h2⟩

/-! ### Examples -/

/-- A lazy sequence announced as four characters whose action throws after two. -/
def brokenLazy : Traits := (Entry.ref (.seq (.atom (.failing (js! "ab") 4 .external)) someId)).toTraits sampleJdk

/-- A sequence that throws at its second character. -/
def brokenChars : Traits :=
  foreignArg ⟨.ok 4, fun i => if i = 0 then .ok (ch! 'a') else .error .external, .ok (js! "abcd"), js! "a"⟩

example : Throws brokenLazy (js! "ab") 4 .external := ⟨by decide, rfl⟩
example : Throws brokenChars (js! "a") 4 .external := ⟨by decide, by rfl⟩

/-- What a format leaves in a builder holding `old: `. -/
def leftBy (format : JStr) (args : List Traits) : Res (JStr × Bool) := do
  let apps ← Compiler.compile ⟨fun _ => true⟩ format
  let r := runSB sampleDateEnv apps args (js! "old: ")
  return (r.target, r.result.toOption.isNone)

example : leftBy (js! "x=%6s;%d") [brokenLazy, intArg 3#32] = .ok (js! "old: x=  ab", true) := by decide +kernel
example : leftBy (js! "x=%-6s;%d") [brokenLazy, intArg 3#32] = .ok (js! "old: x=ab", true) := by decide +kernel
example : leftBy (js! "x=%6.9s") [brokenLazy] = .ok (js! "old: x=  ab", true) := by decide +kernel
example : leftBy (js! "x=%6.3s") [brokenLazy] = .ok (js! "old: x=", true) := by decide +kernel
example : leftBy (js! "x=%6S") [brokenLazy] = .ok (js! "old: x=", true) := by decide +kernel
example : leftBy (js! "x=%6d") [brokenLazy] = .ok (js! "old: x=", true) := by decide +kernel
example : leftBy (js! "x=%6s") [brokenChars] = .ok (js! "old: x=  a", true) := by decide +kernel
-- even when nothing of the text is to be printed, it is asked for
example : leftBy (js! "x=%.0s") [brokenLazy] = .ok (js! "old: x=", true) := by decide +kernel

-- another target gets the blanks only
example : (runSink sampleDateEnv (limited 99) [.fixed (js! "x="), .dflt .s ⟨{}, 6, UNSET, none⟩]
    [brokenLazy] (js! "old: ")).target = js! "old: x=  " := by decide +kernel
-- and if it breaks on a blank, that is the exception the caller sees
example : (runSink sampleDateEnv (limited 8) [.fixed (js! "x="), .dflt .s ⟨{}, 6, UNSET, none⟩]
    [brokenLazy] (js! "old: ")).result.toOption.isNone = true ∧
    (runSink sampleDateEnv (limited 8) [.fixed (js! "x="), .dflt .s ⟨{}, 6, UNSET, none⟩]
    [brokenLazy] (js! "old: ")).target = js! "old: x= " := by decide +kernel

end FastPrintf
