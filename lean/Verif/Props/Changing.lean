/-
C103: a text that is changed while it is printed.

A `CharSequence` argument of another class than `String` and `Seq` is asked for its length, and is read when the field
is written, cut or upper-cased.  In between another thread may have changed it.  The same holds for a `Seq.lazy` whose
action does not produce as many characters as was said.
-/
import Verif.Props.AppendCalls
import Verif.Proofs.Size

namespace FastPrintf
open Spec DefaultAppender

/-- The argument has `n` characters when it is measured and is `out` when it is read. -/
def Spec.Changing (v : Traits) (n : Nat) (out : JStr) : Prop := v.asSeq = changingSeq n out

/-- The text between the blanks for `n` characters. -/
def Spec.blanksFor (d : Directive) (n : Nat) (out : JStr) : JStr :=
  if ch! '-' ∈ d.flags then out ++ List.replicate (d.width.width - n) (ch! ' ')
  else List.replicate (d.width.width - n) (ch! ' ') ++ out

/-- What `%s`, or `%S`, prints of it: nothing if it was empty when measured; if the length is still the same, the text
as it is now; else `%s` prints all of the text with the blanks for the old length, if that was at least 2 and nothing is
to be cut off, and in all other cases there is an exception. -/
def Spec.changed (d : Directive) (up : Bool) (n : Nat) (out : JStr) : Res JStr :=
  if n = 0 then .ok (d.padded [])
  else if out.length = n then .ok (d.padded (cut d.prec.precision (if up then out.map Spec.upper else out)))
  else if up = false ∧ 2 ≤ n ∧ KeepsAll d n then .ok (blanksFor d n out)
  else .error .illegalState

/-! ### One directive -/

theorem changed_lazy {d : Directive} (hp : d.Plain) {v : Traits} {out : JStr} {n : Nat} (h2 : 2 ≤ n)
    (hs : v.asSeq = .ok (.atom (.lazy out n))) (hk : KeepsAll d n) :
    ∃ q, SeqFormatter.s d.context v = .ok q ∧
      (∀ sb, q.appendToSB sb = .ok (sb ++ blanksFor d n out)) ∧
      (out.length ≠ n → q.appendToCalls = .error .illegalState ∧
        q.callsBefore = List.replicate (blanks d n) [32] ∧ q.upperCase = .error .illegalState) := by
  have hprec := hp.prec_eq
  have hok := hp.precOK
  have e1 : UNSET = -1 := rfl
  have hset : d.context.isPrecisionSet = (d.context.precision != UNSET) := rfl
  have hlen : (Seq.atom (.lazy out n)).length = (n : Int) := rfl
  have hnot : ¬ ((d.context.isPrecisionSet && d.context.precision < (n : Int)) = true) := by
    rw [hset]
    unfold SeqFormatter.precOf at hprec
    by_cases hu : d.context.precision = UNSET
    · simp [hu]
    · rw [if_neg hu] at hprec
      have := hk _ hprec.symm
      have hnn : 0 ≤ d.context.precision := by
        rcases hok with h | h
        · exact absurd h hu
        · exact h
      simp; omega
  have hsj : SeqFormatter.s d.context v =
      SeqFormatter.spaceJustify d.context (.atom (.lazy out n)) := by
    unfold SeqFormatter.s
    rw [hs, bind_ok, if_neg (by rw [hlen]; exact hnot)]
  rw [hsj]
  have hcs : out.length ≠ n → (Atomic.lazy out n).appendToCalls = .error .illegalState ∧
      (Atomic.lazy out n).upperCase = .error .illegalState := by
    intro h
    have : Atomic.getCachedString out n = .error .illegalState := by
      unfold Atomic.getCachedString; rw [if_neg (fun hx => h hx.symm)]
    simp only [Atomic.appendToCalls, Atomic.upperCase, this]
    exact ⟨rfl, rfl⟩
  have hlz : ∀ sb, (Atomic.lazy out n).appendToSB sb = .ok (sb ++ out) := fun _ => rfl
  have hw := SeqFormatter.width_toNat d.context
  have hww := hp.width_eq
  have hflag : d.context.hasFlag .leftJustify = true ↔ ch! '-' ∈ d.flags := by
    rw [SeqFormatter.hasFlag_left, left_eq, decide_eq_true_iff]
  unfold SeqFormatter.spaceJustify
  rw [hlen]
  by_cases hgt : SeqFormatter.width d.context > (n : Int)
  · rw [if_pos hgt]
    obtain ⟨a, ha, hal, hne, hsb, hcalls, b, hup⟩ :=
      pad_leaf (k := SeqFormatter.width d.context - (n : Int)) (by omega)
    have hkk : (SeqFormatter.width d.context - (n : Int)).toNat = d.width.width - n := by omega
    rw [hkk] at hsb hcalls
    have hemp : (Seq.atom a).isEmpty = false := by
      simp only [Seq.isEmpty, Seq.length, beq_eq_false_iff_ne]; omega
    simp only [ha, bind_ok]
    by_cases hf : ch! '-' ∈ d.flags
    · rw [if_pos (hflag.mpr hf)]
      refine ⟨Seq.concat0 (.atom (.lazy out n)) (.atom a), ?_, ?_, fun hx => ⟨?_, ?_, ?_⟩⟩
      · simp [Seq.append, hemp, Seq.mkConcat, pure_eq_ok]
      · intro sb
        simp only [Seq.concat0, Seq.appendToSB]
        rw [← Seq.concat0, leaves_two]
        simp only [bind_ok, Seq.appendLeavesSB, hlz, hsb, blanksFor, if_pos hf, List.append_assoc]
      · simp only [Seq.concat0, Seq.appendToCalls]
        rw [← Seq.concat0, leaves_two]
        simp only [bind_ok, Seq.leavesCalls, (hcs hx).1]; rfl
      · simp only [Seq.concat0, Seq.callsBefore, blanks, if_pos hf]
        rw [← Seq.concat0, leaves_two]
        simp only [Seq.leavesCallsBefore, (hcs hx).1]; rfl
      · simp only [Seq.concat0, Seq.upperCase]
        rw [← Seq.concat0, leaves_two]
        simp only [bind_ok, List.mapM_cons, (hcs hx).2]; rfl
    · rw [if_neg (fun h => hf (hflag.mp h))]
      refine ⟨Seq.concat0 (.atom a) (.atom (.lazy out n)), ?_, ?_, fun hx => ⟨?_, ?_, ?_⟩⟩
      · simp [Seq.prepend, hemp, Seq.mkConcat, pure_eq_ok]
      · intro sb
        simp only [Seq.concat0, Seq.appendToSB]
        rw [← Seq.concat0, leaves_two]
        simp only [bind_ok, Seq.appendLeavesSB, hlz, hsb, blanksFor, if_neg hf, List.append_assoc]
      · simp only [Seq.concat0, Seq.appendToCalls]
        rw [← Seq.concat0, leaves_two]
        simp only [bind_ok, Seq.leavesCalls, hcalls, (hcs hx).1]; rfl
      · simp only [Seq.concat0, Seq.callsBefore, blanks, if_neg hf]
        rw [← Seq.concat0, leaves_two]
        simp only [Seq.leavesCallsBefore, hcalls, (hcs hx).1]; simp
      · simp only [Seq.concat0, Seq.upperCase]
        rw [← Seq.concat0, leaves_two]
        simp only [bind_ok, List.mapM_cons, hup, (hcs hx).2]; rfl
  · rw [if_neg hgt]
    have hkk : d.width.width - n = 0 := by omega
    refine ⟨.atom (.lazy out n), rfl, ?_, fun hx => ⟨(hcs hx).1, ?_, ?_⟩⟩
    · intro sb; simp [Seq.appendToSB, Atomic.appendToSB, blanksFor, hkk]
    · simp [Seq.callsBefore, blanks, hkk]
    · simp only [Seq.upperCase, (hcs hx).2]; rfl

theorem changed_cut {d : Directive} (hp : d.Plain) {v : Traits} {out : JStr} {n : Nat}
    (hs : v.asSeq = .ok (.atom (.lazy out n))) (hx : out.length ≠ n) (hk : ¬ KeepsAll d n) :
    SeqFormatter.s d.context v = .error .illegalState := by
  have hprec := hp.prec_eq
  have hok := hp.precOK
  have e1 : UNSET = -1 := rfl
  have hset : d.context.isPrecisionSet = (d.context.precision != UNSET) := rfl
  have hlen : (Seq.atom (.lazy out n)).length = (n : Int) := rfl
  unfold KeepsAll at hk
  push Not at hk
  obtain ⟨p, hpp, hlt⟩ := hk
  rw [hpp] at hprec
  unfold SeqFormatter.precOf at hprec
  by_cases hu : d.context.precision = UNSET
  · rw [if_pos hu] at hprec; cases hprec
  · rw [if_neg hu] at hprec
    injection hprec with hprec
    have hnn : 0 ≤ d.context.precision := by
      rcases hok with h | h
      · exact absurd h hu
      · exact h
    unfold SeqFormatter.s
    rw [hs, bind_ok, hlen, if_pos (by rw [hset]; simp [hu]; omega)]
    simp only [Seq.subSequence, Atomic.subSequence]
    rw [checkPositionIndexes_ok ⟨by omega, by omega, by omega⟩]
    simp only [bind_ok, Atomic.getCachedString, if_neg (fun h => hx (h : n = out.length).symm)]
    rfl

/-- A leaf that is what it was measured to be. -/
theorem changed_same {d : Directive} (hp : d.Plain) {v : Traits} {a : Atomic} (ha : a.WF)
    (hs : v.asSeq = .ok (.atom a)) :
    ∃ r, SeqFormatter.s d.context v = .ok r ∧ r.Sane ∧ r.text = d.padded (cut d.prec.precision a.text) ∧
      ∃ u, r.upperCase = .ok u ∧ u.Sane ∧ u.text = d.padded (cut d.prec.precision (a.text.map Spec.upper)) := by
  have hw : (Seq.atom a).WF := ha
  obtain ⟨r, k, r1, r2, -, r4, r5⟩ := SeqFormatter.s_sane hp.precOK hs hw
  obtain ⟨r5, r6⟩ := r5 (.inl rfl)
  have ht : (Seq.atom a).text = a.text := rfl
  have hcut : ∀ t : JStr, t.take ((SeqFormatter.precOf d.context).getD t.length) = cut d.prec.precision t := by
    intro t
    rw [hp.prec_eq]
    cases d.prec.precision with
    | none => simp [cut]
    | some p => simp [cut]
  have hr : r.text = d.padded (cut d.prec.precision a.text) := by
    rw [r4, r5, SeqFormatter.fieldBy_eq, field_padded, hp.width_eq, left_eq, ht, hcut]
    rfl
  obtain ⟨u, u1, u2, u3, -⟩ := Seq.upperCase_sane r2
  refine ⟨r, r1, r2, hr, u, u1, u2, ?_⟩
  rw [u3, hr]
  have hsp : Spec.upper (ch! ' ') = ch! ' ' := by decide
  have hc : (cut d.prec.precision a.text).map Spec.upper = cut d.prec.precision (a.text.map Spec.upper) := by
    cases d.prec.precision <;> simp [cut]
  rw [← hc]
  unfold Directive.padded padded
  split <;> simp [hsp]

/-- The step of one `%s` or `%S`. -/
theorem changed_step {d : Directive} (hp : d.Plain) (env : DateEnv) {v : Traits} {n : Nat} {out : JStr}
    (hv : Changing v n out) (up : Bool) (hc : d.conv = if up then ch! 'S' else ch! 's') :
    match changed d up n out with
    | .ok t => ∃ q, formatterFor env (convOf d.conv) d.context v = .ok q ∧ ∀ sb, q.appendToSB sb = .ok (sb ++ t)
    | .error e => formatterFor env (convOf d.conv) d.context v = .error e := by
  have same : ∀ a : Atomic, a.WF → v.asSeq = .ok (.atom a) →
      ∃ q, formatterFor env (convOf d.conv) d.context v = .ok q ∧ ∀ sb, q.appendToSB sb =
        .ok (sb ++ d.padded (cut d.prec.precision (if up then a.text.map Spec.upper else a.text))) := by
    intro a ha hs
    obtain ⟨r, r1, r2, r3, u, u1, u2, u3⟩ := changed_same hp ha hs
    cases up with
    | false =>
      refine ⟨r, ?_, fun sb => ?_⟩
      · rw [hc]; exact r1
      · rw [Seq.appendToSB_ok r2, r3]; rfl
    | true =>
      refine ⟨u, ?_, fun sb => ?_⟩
      · rw [hc]
        show (do (← SeqFormatter.s d.context v).upperCase) = _
        rw [r1, bind_ok, u1]
      · rw [Seq.appendToSB_ok u2, u3]; rfl
  unfold Changing changingSeq at hv
  unfold changed
  by_cases h0 : n = 0
  · subst h0
    rw [if_pos rfl]
    obtain ⟨q, q1, q2⟩ := same .empty trivial hv
    refine ⟨q, q1, fun sb => ?_⟩
    rw [q2]
    have : (Atomic.empty).text = ([] : JStr) := rfl
    rw [this]
    cases up <;> cases d.prec.precision <;> simp [cut]
  rw [if_neg h0]
  by_cases hl : out.length = n
  · rw [if_pos hl]
    by_cases h1 : n = 1
    · subst h1
      obtain ⟨c, rfl⟩ := List.length_eq_one_iff.1 hl
      exact same (.ch c) (Nat.le_refl 1) hv
    · have hlz : Atomic.mkLazy out n = .ok (.lazy out n) := by
        unfold Atomic.mkLazy
        rw [if_pos (by omega), if_neg (by omega), if_neg (by omega)]; rfl
      rw [hlz] at hv
      exact same (.lazy out n) hl.symm hv
  rw [if_neg hl]
  by_cases h1 : n = 1
  · subst h1
    have herr : v.asSeq = .error .illegalState := by
      rw [hv]
      unfold Atomic.mkLazy
      rw [if_pos (by omega), if_neg (by omega), if_pos (by omega)]
      simp only [Atomic.getCachedString, if_neg (fun h => hl (h : 1 = out.length).symm)]
      rfl
    rw [if_neg (by omega)]
    have hs : SeqFormatter.s d.context v = .error .illegalState := by
      unfold SeqFormatter.s; rw [herr]; rfl
    cases up <;> rw [hc]
    · exact hs
    · show (do (← SeqFormatter.s d.context v).upperCase) = _
      rw [hs]; rfl
  · have h2 : 2 ≤ n := by omega
    have hlz : Atomic.mkLazy out n = .ok (.lazy out n) := by
      unfold Atomic.mkLazy
      rw [if_pos (by omega), if_neg (by omega), if_neg (by omega)]; rfl
    rw [hlz] at hv
    by_cases hk : KeepsAll d n
    · obtain ⟨q, q1, q2, q3⟩ := changed_lazy hp h2 hv hk
      cases up with
      | false =>
        rw [if_pos ⟨rfl, h2, hk⟩]
        refine ⟨q, ?_, q2⟩
        rw [hc]; exact q1
      | true =>
        rw [if_neg (by simp)]
        rw [hc]
        show (do (← SeqFormatter.s d.context v).upperCase) = _
        rw [q1, bind_ok, (q3 hl).2.2]
    · rw [if_neg (fun h => hk h.2.2)]
      have hs := changed_cut hp hv hl hk
      cases up <;> rw [hc]
      · exact hs
      · show (do (← SeqFormatter.s d.context v).upperCase) = _
        rw [hs]; rfl

/-- **C103.**  `%s` or `%S` of a text that is changed while it is printed, in a call on a builder: nothing else of the
call is affected, and this directive prints `changed`. -/
theorem C103_builder (dates : DateSyntax) (env : DateEnv) (format : JStr) (before after : List Piece) (d : Directive)
    (hr : Reading dates format (before ++ .dir d :: after)) (hp : d.Plain) (up : Bool)
    (hc : d.conv = if up then ch! 'S' else ch! 's') (args rest : List Traits) (v : Traits) (n : Nat) (out : JStr)
    (hv : Changing v n out) (sb t : JStr)
    (hb : runSB env (before.map Piece.compiled) args sb = ⟨t, .ok (v :: rest)⟩) :
    ∃ apps, Compiler.compile dates format = .ok apps ∧
      runSB env apps args sb =
        match changed d up n out with
        | .ok s => runSB env (after.map Piece.compiled) rest (t ++ s)
        | .error e => ⟨t, .error e⟩ := by
  refine ⟨_, (compile_iff _ _ _).mpr ⟨_, hr, rfl⟩, ?_⟩
  rw [List.map_append, List.map_cons, runSB_append, hb]
  show runSB env (.dflt (convOf d.conv) d.context :: _) (v :: rest) t = _
  simp only [runSB, plain_step hp]
  have key := changed_step hp env hv up hc
  cases hch : changed d up n out with
  | ok s =>
    rw [hch] at key
    obtain ⟨q, q1, q2⟩ := key
    simp only [q1, Except.map, q2]
  | error e =>
    rw [hch] at key
    simp only [key, Except.map]

/-- **C103.**  On another target a text whose length has changed is never printed.  `%s` may leave the blanks before the
field; `%S`, and a `%s` that has to cut, leave nothing. -/
theorem C103_appendable (dates : DateSyntax) (env : DateEnv) (format : JStr) (before after : List Piece) (d : Directive)
    (hr : Reading dates format (before ++ .dir d :: after)) (hp : d.Plain) (up : Bool)
    (hc : d.conv = if up then ch! 'S' else ch! 's') (args rest : List Traits) (v : Traits) (n : Nat) (h0 : n ≠ 0)
    (out : JStr) (hl : out.length ≠ n) (hv : Changing v n out) {σ : Type} (k : Sink σ) (st t : σ)
    (hb : runSink env k (before.map Piece.compiled) args st = ⟨t, .ok (v :: rest)⟩) :
    ∃ apps, Compiler.compile dates format = .ok apps ∧
      runSink env k apps args st =
        if up = false ∧ 2 ≤ n ∧ KeepsAll d n then
          ⟨(k.feed t (List.replicate (blanks d n) (js! " "))).1,
            .error (if (k.feed t (List.replicate (blanks d n) (js! " "))).2 then .illegalState else .uncheckedIO)⟩
        else ⟨t, .error .illegalState⟩ := by
  refine ⟨_, (compile_iff _ _ _).mpr ⟨_, hr, rfl⟩, ?_⟩
  rw [List.map_append, List.map_cons, runSink_append, hb]
  show runSink env k (.dflt (convOf d.conv) d.context :: _) (v :: rest) t = _
  simp only [runSink, plain_step hp]
  by_cases hg : up = false ∧ 2 ≤ n ∧ KeepsAll d n
  · rw [if_pos hg]
    obtain ⟨rfl, h2, hk⟩ := hg
    have hlz : Atomic.mkLazy out n = .ok (.lazy out n) := by
      unfold Atomic.mkLazy
      rw [if_pos (by omega), if_neg (by omega), if_neg (by omega)]; rfl
    unfold Changing changingSeq at hv
    rw [hlz] at hv
    obtain ⟨q, q1, -, q3⟩ := changed_lazy hp h2 hv hk
    obtain ⟨c1, c2, -⟩ := q3 hl
    have hf : formatterFor env (convOf d.conv) d.context v = .ok q := by rw [hc]; exact q1
    simp only [hf, Except.map, c1, c2]
    cases k.feed t (List.replicate (blanks d n) [32]) with
    | mk st' b => cases b <;> rfl
  · rw [if_neg hg]
    have key := changed_step hp env hv up hc
    unfold changed at key
    rw [if_neg h0, if_neg hl, if_neg hg] at key
    simp only at key
    simp only [key, Except.map]

/-- **C103.**  If the length has not changed, the text as it is when it is read is printed, like a string. -/
theorem C103_same_length (d : Directive) (up : Bool) (out : JStr) :
    changed d up out.length out = .ok (d.padded (cut d.prec.precision (if up then out.map Spec.upper else out))) := by
  unfold changed
  by_cases h : out.length = 0
  · rw [if_pos h, List.length_eq_zero_iff.1 h]
    cases up <;> cases d.prec.precision <;> simp [cut]
  · rw [if_neg h, if_pos rfl]

/-- **C103.**  The width is missed only by a `%s` that cuts nothing of a text of two characters or more, by as much as
the text has grown or shrunk. -/
theorem C103_width (d : Directive) (up : Bool) (n : Nat) (out s : JStr) (h : changed d up n out = .ok s) :
    s.length = max d.width.width (cut d.prec.precision (List.replicate n 0)).length ∨
    (up = false ∧ 2 ≤ n ∧ KeepsAll d n ∧ s.length + n = max d.width.width n + out.length) := by
  unfold changed at h
  have hpad : ∀ t : JStr, (d.padded t).length = max d.width.width t.length := fun t => padded_length _ _ _
  by_cases h0 : n = 0
  · rw [if_pos h0] at h
    left
    cases h
    rw [hpad, h0]
    cases d.prec.precision <;> simp [cut]
  rw [if_neg h0] at h
  by_cases h1 : out.length = n
  · rw [if_pos h1] at h
    left
    cases h
    rw [hpad, ← h1]
    cases d.prec.precision <;> cases up <;> simp [cut]
  rw [if_neg h1] at h
  by_cases h2 : up = false ∧ 2 ≤ n ∧ KeepsAll d n
  · rw [if_pos h2] at h
    right
    cases h
    refine ⟨h2.1, h2.2.1, h2.2.2, ?_⟩
    unfold blanksFor
    split <;> simp only [List.length_append, List.length_replicate] <;> omega
  · rw [if_neg h2] at h; cases h

/-- A directive of the examples. -/
def changingD (flags : JStr) (w p : Num) (c : JChar) : Directive := ⟨flags, w, p, c, none⟩

/-- An argument that is changed while it is printed. -/
def changingArg (n : Nat) (out : JStr) : Traits := { strArg [] with asSeq := changingSeq n out }

example : Changing (changingArg 3 (js! "abcdef")) 3 (js! "abcdef") := rfl
-- grown from 3 to 6: the field is 8 wide, not 5
example : printf sampleDates sampleDateEnv (js! "[%5s]") [changingArg 3 (js! "abcdef")] = .ok (js! "[  abcdef]") := rfl
-- emptied
example : printf sampleDates sampleDateEnv (js! "[%-5s]") [changingArg 3 []] = .ok (js! "[  ]") := rfl
-- the same with a precision that cuts, and in upper case
example : printf sampleDates sampleDateEnv (js! "[%.2s]") [changingArg 3 (js! "abcdef")] = .error .illegalState := rfl
example : printf sampleDates sampleDateEnv (js! "[%5S]") [changingArg 3 (js! "abcdef")] = .error .illegalState := rfl
-- one character is read at once
example : printf sampleDates sampleDateEnv (js! "[%5s]") [changingArg 1 (js! "abcdef")] = .error .illegalState := rfl
-- and an empty text not at all
example : printf sampleDates sampleDateEnv (js! "[%3s]") [changingArg 0 (js! "abcdef")] = .ok (js! "[   ]") := rfl
example : printf sampleDates sampleDateEnv (js! "[%5.2S]") [changingArg 3 (js! "abc")] = .ok (js! "[   AB]") := rfl
-- a target that is no builder is given the blanks and then nothing
example : received sampleDateEnv [(Piece.dir (changingD [] (.digits (js! "5")) .absent (ch! 's'))).compiled]
    [changingArg 3 (js! "abcdef")] = [js! " ", js! " "] := rfl

end FastPrintf
