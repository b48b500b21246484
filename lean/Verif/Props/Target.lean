/-
C104: targets that tell the three `append` methods apart and that throw what they like.
-/
import Verif.Model.Target
import Verif.Props.AppendCalls

namespace FastPrintf
open Spec DefaultAppender Targets

/-- The text that a call hands over. -/
def Spec.handed : Call → JStr
  | .char c => [c]
  | .text s => s
  | .range s a b => (s.drop a).take (b - a)

/-- A call as the documentation of `Appendable` wants it: the range lies in the text. -/
def Spec.Legal : Call → Prop
  | .range s a b => a ≤ b ∧ b ≤ s.length
  | _ => True

/-- The target sees only the text that is handed over, and throws nothing but `IOException`s. -/
def Spec.Plainly {σ : Type} (k : Target σ) (s : Sink σ) : Prop :=
  ∀ st c, k.step st c = ((s.step st (handed c)).1, if (s.step st (handed c)).2 then none else some .io)

/-- A target that never throws and remembers its calls. -/
def Spec.callRecorder : Target (List Call) := ⟨fun seen c => (seen ++ [c], none)⟩

/-- The calls that such a target is given. -/
def Spec.given (env : DateEnv) (apps : List Appender) (args : List Traits) : List Call :=
  (Targets.run env callRecorder apps args []).target

namespace Targets

theorem charLoop_eq (s : JStr) (up : Bool) (n st : Nat) :
    (charLoop s up n st).map (List.map handed) = Atomic.chunkLoop s up n st := by
  induction n generalizing st with
  | zero => rfl
  | succ n ih =>
    unfold charLoop Atomic.chunkLoop
    rw [← ih]
    cases charAtRaw s st with
    | error e => rfl
    | ok c => cases charLoop s up n (st + 1) <;> rfl

theorem leafCalls_eq (a : Atomic) : (leafCalls a).map (List.map handed) = a.appendToCalls := by
  cases a with
  | empty => rfl
  | repeated c n => simp [leafCalls, Atomic.appendToCalls, Except.map, handed]
  | strView s st n up =>
    simp only [leafCalls, Atomic.appendToCalls]
    cases up with
    | true => rw [if_pos rfl, if_pos rfl, charLoop_eq]
    | false =>
      rw [if_neg (by simp), if_neg (by simp)]
      unfold Atomic.copyRange
      split
      · simp [Except.map, handed, slice]
      · rfl
  | charArray a st n up => exact charLoop_eq _ _ _ _
  | lazy out n =>
    simp only [leafCalls, Atomic.appendToCalls]
    cases Atomic.getCachedString out n <;> rfl
  | failing o n e => rfl

theorem leavesCalls_eq (es : List Atomic) : (leavesCalls es).map (List.map handed) = Seq.leavesCalls es := by
  induction es with
  | nil => rfl
  | cons a es ih =>
    simp only [leavesCalls, Seq.leavesCalls]
    rw [← ih, ← leafCalls_eq]
    cases leafCalls a with
    | error e => rfl
    | ok h =>
      cases leavesCalls es with
      | error e => rfl
      | ok r => simp [Except.map]

theorem leavesBefore_eq (es : List Atomic) : (leavesCallsBefore es).map handed = Seq.leavesCallsBefore es := by
  induction es with
  | nil => rfl
  | cons a es ih =>
    simp only [leavesCallsBefore, Seq.leavesCallsBefore]
    rw [← ih, ← leafCalls_eq]
    cases leafCalls a with
    | error e => rfl
    | ok h => simp [Except.map]

theorem seqCalls_eq (s : Seq) : (seqCalls s).map (List.map handed) = s.appendToCalls := by
  cases s with
  | atom a => exact leafCalls_eq a
  | concat l r n k =>
    simp only [seqCalls, Seq.appendToCalls]
    cases (Seq.concat l r n k).leaves with
    | error e => rfl
    | ok es => exact leavesCalls_eq es
  | array es n =>
    simp only [seqCalls, Seq.appendToCalls]
    cases (Seq.array es n).leaves with
    | error e => rfl
    | ok es => exact leavesCalls_eq es

theorem seqBefore_eq (s : Seq) : (seqCallsBefore s).map handed = s.callsBefore := by
  cases s with
  | atom a => rfl
  | concat l r n k =>
    simp only [seqCallsBefore, Seq.callsBefore]
    cases (Seq.concat l r n k).leaves with
    | error e => rfl
    | ok es => exact leavesBefore_eq es
  | array es n =>
    simp only [seqCallsBefore, Seq.callsBefore]
    cases (Seq.array es n).leaves with
    | error e => rfl
    | ok es => exact leavesBefore_eq es

theorem feed_plainly {σ : Type} {k : Target σ} {s : Sink σ} (h : Plainly k s) (st : σ) (cs : List Call) :
    k.feed st cs = ((s.feed st (cs.map handed)).1, if (s.feed st (cs.map handed)).2 then none else some .io) := by
  induction cs generalizing st with
  | nil => rfl
  | cons c cs ih =>
    simp only [Target.feed, List.map_cons, Sink.feed, h st c]
    rcases s.step st (handed c) with ⟨st', b⟩
    cases b
    · rfl
    · exact ih st'

theorem feed_append {σ : Type} (k : Target σ) (xs ys : List Call) (st : σ) :
    k.feed st (xs ++ ys) = match k.feed st xs with
      | (st, none) => k.feed st ys
      | (st, some x) => (st, some x) := by
  induction xs generalizing st with
  | nil => rfl
  | cons x xs ih =>
    simp only [List.cons_append, Target.feed]
    rcases k.step st x with ⟨st', b⟩
    cases b
    · exact ih st'
    · rfl

theorem recorder_feed (seen cs : List Call) : callRecorder.feed seen cs = (seen ++ cs, none) := by
  induction cs generalizing seen with
  | nil => simp [Target.feed]
  | cons c cs ih =>
    rw [Target.feed]
    simp only [callRecorder] at ih ⊢
    rw [ih]; simp

/-- The calls of a sequence with proper views are legal. -/
theorem leafCalls_legal {a : Atomic} (h : a.WF) : ∃ cs, leafCalls a = .ok cs ∧ ∀ c ∈ cs, Legal c := by
  have hl := leafCalls_eq a
  rw [Atomic.appendToCalls_eq h] at hl
  cases hc : leafCalls a with
  | error e => rw [hc] at hl; cases hl
  | ok cs =>
    refine ⟨cs, rfl, ?_⟩
    have loop : ∀ (s : JStr) (up : Bool) (n st : Nat) (cs : List Call), charLoop s up n st = .ok cs →
        ∀ c ∈ cs, Legal c := by
      intro s up n
      induction n with
      | zero => intro st cs h; cases h; simp
      | succ n ih =>
        intro st cs h
        unfold charLoop at h
        obtain ⟨x, h1, h⟩ := bind_eq_ok.1 h
        obtain ⟨l, h2, h⟩ := bind_eq_ok.1 h
        cases h
        intro c hc
        rcases List.mem_cons.1 hc with rfl | hc
        · trivial
        · exact ih _ _ h2 c hc
    cases a with
    | empty => cases hc; simp
    | repeated c n =>
      cases hc
      intro x hx
      rw [List.eq_of_mem_replicate hx]; trivial
    | strView s st n up =>
      simp only [leafCalls] at hc
      cases up with
      | true => rw [if_pos rfl] at hc; exact loop _ _ _ _ _ hc
      | false =>
        rw [if_neg (by simp)] at hc
        obtain ⟨x, h1, hc⟩ := bind_eq_ok.1 hc
        cases hc
        intro c hc
        rw [List.mem_singleton] at hc
        subst hc
        exact ⟨by omega, h⟩
    | charArray a st n up => exact loop _ _ _ _ _ hc
    | lazy out n =>
      simp only [leafCalls] at hc
      obtain ⟨x, h1, hc⟩ := bind_eq_ok.1 hc
      cases hc
      intro c hc
      rw [List.mem_singleton] at hc
      subst hc; trivial
    | failing o n e => exact h.elim

theorem seqCalls_legal {s : Seq} (h : s.Sane) : ∃ cs, seqCalls s = .ok cs ∧ ∀ c ∈ cs, Legal c := by
  have go : ∀ es : List Atomic, (∀ a ∈ es, a.WF) → ∃ cs, leavesCalls es = .ok cs ∧ ∀ c ∈ cs, Legal c := by
    intro es
    induction es with
    | nil => intro _; exact ⟨[], rfl, by simp⟩
    | cons a es ih =>
      intro he
      obtain ⟨cs, c1, c2⟩ := leafCalls_legal (he a (by simp))
      obtain ⟨ds, d1, d2⟩ := ih fun b hb => he b (by simp [hb])
      refine ⟨cs ++ ds, by simp [leavesCalls, c1, d1], ?_⟩
      intro c hc
      rcases List.mem_append.1 hc with hc | hc
      · exact c2 c hc
      · exact d2 c hc
  cases s with
  | atom a => exact leafCalls_legal (show a.WF from h)
  | concat l r n k => simp only [seqCalls, Seq.leaves_ok h, bind_ok]; exact go _ (Seq.flat_wf h)
  | array es n => simp only [seqCalls, Seq.leaves_ok h, bind_ok]; exact go _ (Seq.flat_wf h)

theorem run_calls (env : DateEnv) (apps : List Appender) (hs : ∀ a ∈ apps, a.Stored)
    (args : List Traits) (hv : ∀ v ∈ args, v.WF) :
    ∃ cs : List Call, (∀ c ∈ cs, Legal c) ∧
      ∀ (σ : Type) (k : Target σ) (st : σ), Targets.run env k apps args st =
        match k.feed st cs with
        | (st, none) => ⟨st, (runSB env apps args []).result⟩
        | (st, some x) => ⟨st, .error x.surfaces⟩ := by
  induction apps generalizing args with
  | nil => exact ⟨[], by simp, fun σ k st => rfl⟩
  | cons a apps ih =>
    cases ha : a.append env args with
    | error e =>
      refine ⟨[], by simp, fun σ k st => ?_⟩
      simp [Targets.run, runSB, ha, Target.feed]
    | ok r =>
      obtain ⟨seq, rest⟩ := r
      obtain ⟨h1, h2⟩ := Appender.append_sane (hs a (by simp)) hv ha
      obtain ⟨cs, c1, c2⟩ := seqCalls_legal h1
      obtain ⟨ds, d1, d2⟩ := ih (fun b hb => hs b (by simp [hb])) rest h2
      have hrun : (runSB env (a :: apps) args []).result = (runSB env apps rest []).result := by
        conv_lhs => unfold runSB
        rw [ha]
        simp only [Seq.appendToSB_ok h1, List.nil_append]
        rw [runSB_prefix]
      refine ⟨cs ++ ds, ?_, fun σ k st => ?_⟩
      · intro c hc
        rcases List.mem_append.1 hc with hc | hc
        · exact c2 c hc
        · exact d1 c hc
      · rw [hrun, feed_append]
        simp only [Targets.run, ha, c1]
        rcases k.feed st cs with ⟨st', x⟩
        cases x with
        | none => exact d2 σ k st'
        | some x => rfl

end Targets

/-- **C104.**  A target that only looks at the texts, whichever method brings them, and throws nothing but
`IOException`s, is treated as in the other properties, whatever the arguments are. -/
theorem C104_texts (env : DateEnv) {σ : Type} (k : Target σ) (s : Sink σ) (h : Plainly k s) (apps : List Appender)
    (args : List Traits) (st : σ) : Targets.run env k apps args st = runSink env s apps args st := by
  induction apps generalizing args st with
  | nil => rfl
  | cons a apps ih =>
    simp only [Targets.run, runSink]
    cases a.append env args with
    | error e => rfl
    | ok r =>
      obtain ⟨q, rest⟩ := r
      simp only
      rw [← seqCalls_eq]
      cases seqCalls q with
      | error e =>
        simp only [Except.map]
        rw [← seqBefore_eq, feed_plainly h]
        rcases s.feed st ((seqCallsBefore q).map handed) with ⟨st', b⟩
        cases b <;> rfl
      | ok cs =>
        simp only [Except.map]
        rw [feed_plainly h]
        rcases s.feed st (cs.map handed) with ⟨st', b⟩
        cases b
        · rfl
        · exact ih rest st'

theorem given_handed (env : DateEnv) (apps : List Appender) (hs : ∀ a ∈ apps, a.Stored) (args : List Traits)
    (hv : ∀ v ∈ args, v.WF) : (given env apps args).map handed = received env apps args := by
  obtain ⟨cs, _, h2⟩ := run_calls env apps hs args hv
  have hg : given env apps args = cs := by
    rw [given, h2, Targets.recorder_feed]; simp
  have := C104_texts env (σ := List JStr) ⟨fun seen c => (seen ++ [handed c], none)⟩ recorder (fun _ _ => rfl) apps args []
  rw [hg, received, ← this, h2, feed_plainly (s := recorder) (fun _ _ => rfl), FastPrintf.recorder_feed]
  simp

/-- **C104.**  Every target, whatever it does and throws, is given the same calls in the same order, up to the first
that throws; an `IOException` surfaces as an `UncheckedIOException`, everything else as it is; no further call is made,
and the target is left as that call left it.  The calls are legal, and their texts are those of C102. -/
theorem C104_calls (dates : DateSyntax) (env : DateEnv) (format : JStr) (apps : List Appender)
    (hc : Compiler.compile dates format = .ok apps) (args : List Traits) (hv : ∀ v ∈ args, v.WF) :
    (∀ (σ : Type) (k : Target σ) (st : σ), Targets.run env k apps args st =
      match k.feed st (given env apps args) with
      | (st, none) => ⟨st, (runSB env apps args []).result⟩
      | (st, some .io) => ⟨st, .error .uncheckedIO⟩
      | (st, some (.other e)) => ⟨st, .error e⟩) ∧
    (∀ c ∈ given env apps args, Legal c) ∧
    (given env apps args).map handed = received env apps args := by
  obtain ⟨cs, h1, h2⟩ := run_calls env apps (compiled_all hc) args hv
  have hg : given env apps args = cs := by
    rw [given, h2, Targets.recorder_feed]; simp
  refine ⟨fun σ k st => ?_, by rw [hg]; exact h1, given_handed env apps (compiled_all hc) args hv⟩
  rw [hg, h2]
  rcases k.feed st cs with ⟨st', x⟩
  rcases x with _ | _ | e <;> rfl

/-! ### Which method is called -/

/-- The first `k` characters of a text: one is handed over by `append(char)`, more as a range of the text itself. -/
def Spec.handing (s : JStr) : Nat → List Call
  | 0 => []
  | 1 => s.head?.toList.map .char
  | k => [.range s 0 k]

/-- The calls of a body of `n` characters in the field of a directive. -/
def Spec.fieldCalls (d : Directive) (n : Nat) (body : List Call) : List Call :=
  if ch! '-' ∈ d.flags then body ++ List.replicate (d.width.width - n) (.char (ch! ' '))
  else List.replicate (d.width.width - n) (.char (ch! ' ')) ++ body

namespace Targets

theorem justify_leaf {d : Directive} (hp : d.Plain) {a : Atomic} {n : Nat} (hl : (a.length : Int) = n)
    {cs : List Call} (hc : leafCalls a = .ok cs) :
    ∃ r, SeqFormatter.spaceJustify d.context (.atom a) = .ok r ∧ seqCalls r = .ok (fieldCalls d n cs) := by
  have hlen : (Seq.atom a).length = (n : Int) := hl
  have hw := SeqFormatter.width_toNat d.context
  have hww := hp.width_eq
  have hflag : d.context.hasFlag .leftJustify = true ↔ ch! '-' ∈ d.flags := by
    rw [SeqFormatter.hasFlag_left, left_eq, decide_eq_true_iff]
  unfold SeqFormatter.spaceJustify
  rw [hlen]
  by_cases hgt : SeqFormatter.width d.context > (n : Int)
  · rw [if_pos hgt]
    have hkk : (SeqFormatter.width d.context - (n : Int)).toNat = d.width.width - n := by omega
    have hpad : ∃ b : Atomic, Seq.repeated 32 (SeqFormatter.width d.context - (n : Int)) = .ok (.atom b) ∧
        leafCalls b = .ok (List.replicate (d.width.width - n) (.char 32)) ∧ (Seq.atom b).isEmpty = false := by
      rw [← hkk]
      unfold Seq.repeated Atomic.mkRepeated
      rw [if_pos (by omega)]
      by_cases h1 : SeqFormatter.width d.context - (n : Int) = 1
      · rw [h1, if_pos rfl]; exact ⟨_, rfl, rfl, rfl⟩
      · rw [if_neg h1]
        refine ⟨_, rfl, rfl, ?_⟩
        simp only [Seq.isEmpty, Seq.length, Atomic.length, beq_eq_false_iff_ne]; omega
    obtain ⟨b, hb, hcb, hemp⟩ := hpad
    simp only [hb, bind_ok]
    by_cases hf : ch! '-' ∈ d.flags
    · rw [if_pos (hflag.mpr hf)]
      refine ⟨_, rfl, ?_⟩
      simp only [fieldCalls, if_pos hf]
      cases a with
      | empty => cases hc; exact hcb
      | _ =>
        simp only [Seq.append, hemp, Seq.mkConcat, Bool.false_eq_true, if_false]
        simp only [Seq.concat0, seqCalls]
        rw [← Seq.concat0, leaves_two]
        simp [leavesCalls, hc, hcb]
    · rw [if_neg (fun h => hf (hflag.mp h))]
      refine ⟨_, rfl, ?_⟩
      simp only [fieldCalls, if_neg hf]
      cases a with
      | empty => cases hc; rw [List.append_nil]; exact hcb
      | _ =>
        simp only [Seq.prepend, hemp, Seq.mkConcat, Bool.false_eq_true, if_false]
        simp only [Seq.concat0, seqCalls]
        rw [← Seq.concat0, leaves_two]
        simp [leavesCalls, hc, hcb]
  · rw [if_neg hgt]
    have hkk : d.width.width - n = 0 := by omega
    refine ⟨_, rfl, ?_⟩
    simp only [seqCalls, hc, fieldCalls, hkk]
    split <;> simp

theorem leafCalls_wrap (s : JStr) : leafCalls (.wrap s) = .ok (handing s s.length) := by
  match s with
  | [] => rfl
  | [c] => rfl
  | a :: b :: l =>
    simp only [Atomic.wrap, leafCalls]
    rw [if_neg (by simp), Atomic.copyRange, if_pos (by omega)]
    simp [handing]

/-- The leaf that a string is cut to. -/
theorem cut_wrap (s : JStr) (p : Nat) (h : p < s.length) :
    ∃ a, (Atomic.wrap s).subSequence 0 p = .ok a ∧ (a.length : Int) = p ∧ leafCalls a = .ok (handing s p) := by
  match s with
  | [] => simp at h
  | [c] =>
    obtain rfl : p = 0 := by simpa using h
    exact ⟨.empty, rfl, rfl, rfl⟩
  | a :: b :: l =>
    simp only [Atomic.wrap, Atomic.subSequence]
    rw [checkPositionIndexes_ok ⟨by omega, by omega, by simp at h ⊢; omega⟩, bind_ok]
    by_cases h0 : p = 0
    · subst h0; exact ⟨.empty, rfl, rfl, rfl⟩
    · rw [if_neg (by omega)]
      by_cases h1 : p = 1
      · subst h1
        exact ⟨.ch a, rfl, rfl, rfl⟩
      · rw [if_neg (by omega)]
        refine ⟨_, rfl, by simp [Atomic.length], ?_⟩
        simp only [leafCalls]
        rw [if_neg (by simp), Atomic.copyRange, if_pos (by simp at h ⊢; omega)]
        obtain ⟨q, rfl⟩ : ∃ q, p = q + 2 := ⟨p - 2, by omega⟩
        simp [handing]
        omega

theorem given_one {env : DateEnv} {a : Appender} {args rest : List Traits} {s : Seq} {cs : List Call}
    (hs : seqCalls s = .ok cs) (h : a.append env args = .ok (s, rest)) : given env [a] args = cs := by
  simp only [given, Targets.run, h, hs, Targets.recorder_feed]
  simp

end Targets

/-- **C104.**  Literal text is handed over as a range of the text, or by `append(char)` if it is one character. -/
theorem C104_literal (env : DateEnv) (t : JStr) (args : List Traits) :
    given env [(Piece.lit t).compiled] args = handing t t.length :=
  given_one (rest := args) (s := .atom (.wrap t)) (leafCalls_wrap t) rfl

/-- **C104.**  `%s` of a `String` hands over a range of that very string, without copying it; a single character by
`append(char)`, like the blanks. -/
theorem C104_string (env : DateEnv) (jdk : JdkEnv) (d : Directive) (hp : d.Plain) (hc : d.conv = ch! 's') (s : JStr)
    (id : Identity) (rest : List Traits) :
    given env [(Piece.dir d).compiled] ((Entry.ref (.string s id)).toTraits jdk :: rest) =
      fieldCalls d (cut d.prec.precision s).length (handing s (cut d.prec.precision s).length) := by
  have h1 : ((Entry.ref (.string s id)).toTraits jdk).asSeq = .ok (.atom (.wrap s)) := rfl
  have hl : ((Atomic.wrap s).length : Int) = s.length := by
    match s with
    | [] => rfl
    | [c] => rfl
    | a :: b :: l => rfl
  have hstep : ∀ r cs, SeqFormatter.s d.context ((Entry.ref (.string s id)).toTraits jdk) = .ok r →
      seqCalls r = .ok cs →
      given env [(Piece.dir d).compiled] ((Entry.ref (.string s id)).toTraits jdk :: rest) = cs := by
    intro r cs h2 h3
    refine given_one (rest := rest) h3 ?_
    show Appender.append env (.dflt (convOf d.conv) d.context) _ = _
    rw [plain_step hp, hc]
    show (SeqFormatter.s d.context ((Entry.ref (.string s id)).toTraits jdk)).map _ = _
    rw [h2]; rfl
  have hprec := hp.prec_eq
  have hset : d.context.isPrecisionSet = (d.context.precision != UNSET) := rfl
  by_cases hk : KeepsAll d s.length
  · have hcut : cut d.prec.precision s = s := by
      unfold cut
      cases hd : d.prec.precision with
      | none => rfl
      | some p => exact List.take_of_length_le (hk p hd)
    rw [hcut]
    obtain ⟨r, r1, r2⟩ := justify_leaf hp hl (leafCalls_wrap s)
    refine hstep r _ ?_ r2
    unfold SeqFormatter.s
    rw [h1, bind_ok, if_neg]
    · exact r1
    · intro hx
      rw [Bool.and_eq_true, SeqFormatter.isPrecisionSet_iff, decide_eq_true_eq] at hx
      have hge : 0 ≤ d.context.precision := by
        rcases hp.precOK with h | h
        · exact absurd h hx.1
        · exact h
      have := hk d.context.precision.toNat (by rw [← hp.prec_eq, SeqFormatter.precOf, if_neg hx.1])
      have hx2 : d.context.precision < ((Atomic.wrap s).length : Int) := hx.2
      omega
  · unfold KeepsAll at hk
    push Not at hk
    obtain ⟨p, hpp, hlt⟩ := hk
    have hcut : (cut d.prec.precision s).length = p := by
      rw [hpp]; simp only [cut, List.length_take]; omega
    rw [hcut]
    obtain ⟨a, a1, a2, a3⟩ := cut_wrap s p hlt
    obtain ⟨r, r1, r2⟩ := justify_leaf hp a2 a3
    refine hstep r _ ?_ r2
    rw [hpp] at hprec
    unfold SeqFormatter.precOf at hprec
    by_cases hu : d.context.precision = UNSET
    · rw [if_pos hu] at hprec; cases hprec
    · rw [if_neg hu] at hprec
      injection hprec with hprec
      have hnn : 0 ≤ d.context.precision := by
        rcases hp.precOK with h | h
        · exact absurd h hu
        · exact h
      have hpz : d.context.precision = (p : Int) := by omega
      unfold SeqFormatter.s
      rw [h1, bind_ok, hpz, if_pos]
      · simp only [Seq.subSequence, a1, bind_ok, pure_eq_ok]; exact r1
      · rw [Bool.and_eq_true, decide_eq_true_eq]
        refine ⟨by rw [hset]; simp [hu], ?_⟩
        show (p : Int) < ((Atomic.wrap s).length : Int)
        omega

namespace Targets

/-- The leaf is handed over by `append(char)` alone. -/
def CharByChar : Atomic → Prop
  | .empty => True
  | .repeated _ _ => True
  | .charArray _ _ _ _ => True
  | .strView _ _ _ up => up = true
  | .lazy _ _ => False
  | .failing _ _ _ => False

theorem charLoop_chars {s : JStr} {up : Bool} {n st : Nat} {cs : List Call} (h : charLoop s up n st = .ok cs) :
    ∀ c ∈ cs, ∃ x, c = .char x := by
  induction n generalizing st cs with
  | zero => cases h; simp
  | succ n ih =>
    unfold charLoop at h
    obtain ⟨c, h1, h⟩ := bind_eq_ok.1 h
    obtain ⟨t, h2, h⟩ := bind_eq_ok.1 h
    cases h
    intro y hy
    rcases List.mem_cons.1 hy with rfl | hy
    · exact ⟨_, rfl⟩
    · exact ih h2 y hy

theorem leafCalls_chars {a : Atomic} (ha : CharByChar a) {cs : List Call} (h : leafCalls a = .ok cs) :
    ∀ c ∈ cs, ∃ x, c = .char x := by
  cases a with
  | empty => cases h; simp
  | repeated c n =>
    cases h
    intro y hy
    exact ⟨c, List.eq_of_mem_replicate hy⟩
  | charArray b st n up => exact charLoop_chars h
  | strView b st n up =>
    simp only [CharByChar] at ha
    simp only [leafCalls, ha, if_true] at h
    exact charLoop_chars h
  | lazy => exact ha.elim
  | failing => exact ha.elim

theorem leavesCalls_chars {es : List Atomic} (he : ∀ a ∈ es, CharByChar a) {cs : List Call}
    (h : leavesCalls es = .ok cs) : ∀ c ∈ cs, ∃ x, c = .char x := by
  induction es generalizing cs with
  | nil => cases h; simp
  | cons a es ih =>
    simp only [leavesCalls] at h
    obtain ⟨l, h1, h⟩ := bind_eq_ok.1 h
    obtain ⟨t, h2, h⟩ := bind_eq_ok.1 h
    cases h
    intro y hy
    rcases List.mem_append.1 hy with hy | hy
    · exact leafCalls_chars (he a (by simp)) h1 y hy
    · exact ih (fun b hb => he b (by simp [hb])) h2 y hy

theorem leaf_upper_chars {a b : Atomic} (h : a.upperCase = .ok b) : CharByChar b := by
  cases a with
  | empty => cases h; trivial
  | repeated c n =>
    simp only [Atomic.upperCase] at h
    split_ifs at h <;> cases h <;> trivial
  | strView s st n up => cases h; rfl
  | charArray s st n up => cases h; trivial
  | lazy out n =>
    simp only [Atomic.upperCase] at h
    obtain ⟨t, h1, h⟩ := bind_eq_ok.1 h
    match t, h with
    | [], h => cases h; trivial
    | [c], h =>
      simp only [Atomic.wrap, Atomic.ch] at h
      split_ifs at h <;> cases h <;> trivial
    | x :: y :: t, h => cases h; rfl
  | failing => cases h

theorem upper_chars {s r : Seq} (h : s.upperCase = .ok r) {cs : List Call} (hc : seqCalls r = .ok cs) :
    ∀ c ∈ cs, ∃ x, c = .char x := by
  have mapped : ∀ (es : List Atomic) {us : List Atomic}, es.mapM Atomic.upperCase = .ok us →
      ∀ a ∈ us, CharByChar a := by
    intro es
    induction es with
    | nil => intro us hu; cases hu; simp
    | cons a es ih =>
      intro us hu
      rw [List.mapM_cons] at hu
      obtain ⟨b, hb, hu⟩ := bind_eq_ok.1 hu
      obtain ⟨bs, hbs, hu⟩ := bind_eq_ok.1 hu
      cases hu
      intro y hy
      rcases List.mem_cons.1 hy with rfl | hy
      · exact leaf_upper_chars hb
      · exact ih hbs y hy
  cases s with
  | atom a =>
    obtain ⟨b, hb, h⟩ := bind_eq_ok.1 h
    cases h
    exact leafCalls_chars (leaf_upper_chars hb) hc
  | _ =>
    simp only [Seq.upperCase] at h
    obtain ⟨es, _, h⟩ := bind_eq_ok.1 h
    obtain ⟨us, hu, h⟩ := bind_eq_ok.1 h
    cases h
    exact leavesCalls_chars (mapped _ hu) hc

end Targets

/-- **C104.**  An upper-case conversion hands over its field by `append(char)` alone, whatever the argument. -/
theorem C104_upper (dates : DateSyntax) (env : DateEnv) (d : Directive) (hd : d.Ok dates) (lo : JChar)
    (hc : (lo, d.conv) ∈ casePairs) (args : List Traits) (hv : ∀ v ∈ args, v.WF) :
    given env [(Piece.dir d).compiled] args =
      (runSB env [(Piece.dir d).compiled] args []).target.map .char := by
  have hst : (Piece.dir d).compiled.Stored := Piece.compiled_stored (dates := dates) (p := .dir d) hd
  have hall : ∀ c ∈ given env [(Piece.dir d).compiled] args, ∃ x, c = .char x := by
    cases hx : (Piece.dir d).compiled.append env args with
    | error e => simp [given, Targets.run, hx]
    | ok q =>
      obtain ⟨s, rest⟩ := q
      obtain ⟨hs, _⟩ := Appender.append_sane hst hv hx
      obtain ⟨cs, hcs, _⟩ := seqCalls_legal hs
      rw [given_one hcs hx]
      obtain ⟨c, v, h1, h2, h3⟩ := append_formatter hst.1 hst.2 hx
      have up : ∀ {α : Type} {x : Res α} {g : α → Res Seq},
          (x >>= fun a => g a >>= fun s => s.upperCase) = .ok s → ∀ c ∈ cs, ∃ x, c = .char x := by
        intro α x g hq
        obtain ⟨a, g1, g2⟩ := bind_eq_ok.1 hq
        obtain ⟨q, g3, g4⟩ := bind_eq_ok.1 g2
        exact upper_chars g4 hcs
      have up' : ∀ {x : Res Seq}, (x >>= fun s => s.upperCase) = .ok s → ∀ c ∈ cs, ∃ x, c = .char x := by
        intro x hq
        obtain ⟨q, g3, g4⟩ := bind_eq_ok.1 hq
        exact upper_chars g4 hcs
      simp only [casePairs, List.mem_cons, Prod.mk.injEq, List.not_mem_nil, or_false] at hc
      rcases hc with ⟨_, h⟩ | ⟨_, h⟩ | ⟨_, h⟩ | ⟨_, h⟩ | ⟨_, h⟩ | ⟨_, h⟩ | ⟨_, h⟩ <;> rw [h] at h3
      · exact up h3
      · exact up h3
      · exact up h3
      · exact up h3
      · exact up h3
      · exact up' h3
      · exact up' h3
  have htext := (given_handed env [(Piece.dir d).compiled] (by simpa using hst) args hv).trans
    (C102_upper dates env d hd lo hc args hv)
  generalize given env [(Piece.dir d).compiled] args = g at hall htext
  generalize (runSB env [(Piece.dir d).compiled] args []).target = t at htext
  induction g generalizing t with
  | nil => cases t with
    | nil => rfl
    | cons => simp [oneByOne] at htext
  | cons c g ih =>
    obtain ⟨x, rfl⟩ := hall c (by simp)
    cases t with
    | nil => simp [oneByOne] at htext
    | cons y t =>
      simp only [List.map_cons, oneByOne, List.cons.injEq, handed] at htext
      rw [List.map_cons, ih (fun c hc => hall c (by simp [hc])) t htext.2]
      rw [htext.1.1]

/-- The calls that a format makes. -/
def givenBy (format : JStr) (es : List Entry) : Res (List Call) := do
  let apps ← Compiler.compile ⟨fun _ => true⟩ format
  return given sampleDateEnv apps (es.map (·.toTraits sampleJdk))

-- the string itself, and where in it
example : givenBy (js! "x=%5.3s;") [someString (js! "abcdef")] =
    .ok [.range (js! "x=") 0 2, .char 32, .char 32, .range (js! "abcdef") 0 3, .char (ch! ';')] := by decide +kernel
-- a text of a foreign class is handed over whole
example : givenBy (js! "%-4s") [.ref (.charSeq (js! "abc") ⟨js! "java.lang.StringBuffer", 1#32⟩)] =
    .ok [.text (js! "abc"), .char 32] := by decide +kernel
example : givenBy (js! "%+d") [.prim (.int 123#32)] = .ok [.char (ch! '+'), .range (js! "123") 0 3] := by decide +kernel

example : givenBy (js! "%3S") [someString (js! "ab")] = .ok [.char 32, .char (ch! 'A'), .char (ch! 'B')] := by
  decide +kernel

/-- A target that throws an exception of its own at the second call. -/
def fussy : Target Nat := ⟨fun n _ => (n + 1, if n = 1 then some (.other .external) else none)⟩

example : (Targets.run sampleDateEnv fussy [.fixed (js! "a"), .fixed (js! "bc"), .fixed (js! "d")] [] 0).target = 2 := rfl
example : (Targets.run sampleDateEnv fussy [.fixed (js! "a"), .fixed (js! "bc"), .fixed (js! "d")] [] 0).result =
    .error .external := rfl
-- a target that sees only texts
example : Plainly (σ := JStr) ⟨fun st c => (st ++ handed c, none)⟩ ⟨fun st t => (st ++ t, true)⟩ := fun _ _ => rfl

end FastPrintf
