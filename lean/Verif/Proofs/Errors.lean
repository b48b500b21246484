/-
Which error the compiler reports first, and where.
-/
import Verif.Proofs.Reading

namespace FastPrintf
open Spec

/-- After a well-formed prefix, an error in the next directive is the error of the whole. -/
theorem parseNext_error_after {env : DateSyntax} {pre t : JStr} {ps : List Piece}
    (h : Reading env pre ps) {e : Err} {pos fuel : Nat} (hf : (pre ++ 37 :: t).length < fuel)
    (he : Compiler.forPattern env t (pos + pre.length + 1) = .error e) :
    Compiler.parseNext env fuel (pre ++ 37 :: t) pos = .error e := by
  induction hn : ps.length using Nat.strong_induction_on generalizing ps pre pos fuel with
  | _ n ih =>
    cases fuel with
    | zero => omega
    | succ fuel =>
      have follow : ∀ {p : Piece} {r : JStr}, Follow p r → Follow p (r ++ 37 :: t) := by
        intro p r hp d hd h1 h2
        cases r with
        | nil => simp
        | cons c r => simpa using hp d hd h1 h2
      simp only [List.length_append, List.length_cons] at hf
      cases ps with
      | nil =>
        have := reading_nil.1 h
        subst this
        simp only [List.length_nil, Nat.add_zero] at he
        simp [Compiler.parseNext, he]
      | cons p ps =>
        by_cases hp : ∀ l, p ≠ .lit l
        · obtain ⟨r, rfl, k2, k3, k5⟩ := (reading_cons hp).1 h
          have hl := text_length hp
          simp only [List.length_append] at he hf
          have hx : ∃ y, p.text = 37 :: y := by
            have := text_head hp []
            cases hy : p.text with
            | nil => rw [hy] at hl; simp at hl
            | cons c y => rw [hy] at this; simp at this; exact ⟨y, by rw [this]⟩
          obtain ⟨y, hy⟩ := hx
          have hyl := congrArg List.length hy
          simp only [List.length_cons] at hyl
          have s1 := (forPattern_iff env (y ++ r ++ 37 :: t) (pos + 1) p.compiled (r ++ 37 :: t)
            (pos + p.text.length)).2 ⟨p, hp, by rw [hy]; simp, k2, follow k3, rfl, by omega⟩
          rw [hy]
          simp only [List.cons_append, Compiler.parseNext, if_true]
          rw [s1]
          simp only [bind_ok]
          rw [ih ps.length (by rw [← hn]; simp) k5 (pos := pos + p.text.length) (fuel := fuel)
            (by simp only [List.length_append, List.length_cons]; omega)
            (by rw [← he]; congr 1; omega) rfl]
          rfl
        · simp only [ne_eq, not_forall, not_not] at hp
          obtain ⟨l, rfl⟩ := hp
          obtain ⟨r, rfl, k2, k3, k4, k5⟩ := reading_lit.1 h
          have hr : ∀ c, (r ++ 37 :: t).head? = some c → c = 37 := by
            intro c hc
            cases r with
            | nil => simpa using hc.symm
            | cons d r => exact k4 c (by simpa using hc)
          have s0 := literalRun_append l (r ++ 37 :: t) k3 hr
          simp only [List.length_append] at he hf
          cases l with
          | nil => exact absurd rfl k2
          | cons c l =>
            have hc : c ≠ 37 := by rintro rfl; exact k3 (by simp)
            rw [List.append_assoc, List.cons_append]
            rw [List.cons_append] at s0
            simp only [Compiler.parseNext, if_neg hc, s0]
            cases ps with
            | nil =>
              have := reading_nil.1 k5
              subst this
              simp only [List.nil_append]
              simp only [List.length_nil, Nat.add_zero] at he
              rw [he]; rfl
            | cons p ps =>
              have hp : ∀ l, p ≠ .lit l := by
                rintro l' rfl
                obtain ⟨r', rfl, m2, m3, _⟩ := reading_lit.1 k5
                cases l' with
                | nil => exact m2 rfl
                | cons d l' =>
                  have := k4 d (by simp)
                  exact m3 (by simp [this])
              obtain ⟨r', rfl, m2, m3, m5⟩ := (reading_cons hp).1 k5
              have hl := text_length hp
              have hx : ∃ y, p.text = 37 :: y := by
                have := text_head hp []
                cases hy : p.text with
                | nil => rw [hy] at hl; simp at hl
                | cons c y => rw [hy] at this; simp at this; exact ⟨y, by rw [this]⟩
              obtain ⟨y, hy⟩ := hx
              have hyl := congrArg List.length hy
              simp only [List.length_cons] at hyl
              simp only [List.length_append, List.length_cons] at he hf
              have s1 := (forPattern_iff env (y ++ r' ++ 37 :: t) (pos + (c :: l).length + 1) p.compiled
                (r' ++ 37 :: t) (pos + (c :: l).length + p.text.length)).2
                ⟨p, hp, by rw [hy]; simp, m2, follow m3, rfl, by omega⟩
              rw [hy]
              simp only [List.cons_append]
              rw [s1]
              simp only [bind_ok]
              rw [ih ps.length (by rw [← hn]; simp; omega) m5 (pos := pos + (c :: l).length + p.text.length)
                (fuel := fuel) (by simp only [List.length_append, List.length_cons]; omega)
                (by rw [← he]; congr 1; simp only [List.length_cons]; omega) rfl]
              rfl

theorem compile_error_after {env : DateSyntax} {pre t : JStr} {ps : List Piece}
    (h : Reading env pre ps) {e : Err} (he : Compiler.forPattern env t (pre.length + 1) = .error e) :
    Compiler.compile env (pre ++ 37 :: t) = .error e :=
  parseNext_error_after h (by omega) (by rw [← he]; congr 1; omega)

/-- Parsing a directive up to its date part. -/
theorem forPattern_steps {env : DateSyntax} {d : Directive} (hd : d.Ok env) (hdate : d.date = none)
    {rest r4 : JStr} (h : 37 :: rest = d.text ++ r4) (pos : Nat) :
    Compiler.forPattern env rest pos = (do
      let (dtf, r5, p5) ← Compiler.datePart env (convOf d.conv) r4 (pos + d.text.length - 1)
      return (.dflt (convOf d.conv) ⟨flagSet d.flags, d.width.value, d.prec.value, dtf⟩, r5, p5)) := by
  have hne : ∃ c rest', rest = c :: rest' ∧ c ≠ 37 := by
    cases rest with
    | nil =>
      have := congrArg List.length h
      simp [Directive.text] at this
    | cons c rest' =>
      refine ⟨c, rest', rfl, ?_⟩
      rintro rfl
      exact percent_ne_dir hd (r := rest') h
  obtain ⟨c, rest, rfl, hc⟩ := hne
  unfold Compiler.forPattern
  simp only
  rw [if_neg hc]
  have h2 := h
  simp only [Directive.text, hdate, dateText, List.cons_append, List.nil_append, List.append_nil,
    List.append_assoc, List.cons.injEq, true_and] at h2
  have hf := conv_facts hd.conv
  have hh2 : ∀ x, (precText d.prec ++ d.conv :: r4).head? = some x →
      ¬ IsDigit x ∧ x ∉ flagChars ∧ x ≠ 42 := fun x hx => head_prec_facts hd.conv hx
  have s1 := (flags_iff (c :: rest) pos {} (flagSet d.flags)
    (d.width.text ++ (precText d.prec ++ d.conv :: r4)) (pos + d.flags.length)).2
    ⟨d.flags, h2, hd.flagsOk, hd.noRepeat, (by intro f _; cases f <;> rfl),
      (fun x hx => head_width_facts hd.width hd.conv hx),
      (by intro f; rw [flagSet_contains]; cases f <;> simp [Flags.contains]), rfl⟩
  have hr1' : (d.width.text ++ (precText d.prec ++ d.conv :: r4)).head? ≠ some 48 := by
    intro hx
    exact head_width_facts hd.width hd.conv hx (by decide)
  have hwOk : d.width.Ok := by
    have := hd.width
    cases hw : d.width with
    | absent => trivial
    | star => trivial
    | digits ds => rw [hw] at this; exact this.2.2
  obtain ⟨w1, w2⟩ := num_check.2 hwOk
  obtain ⟨q1, q2⟩ := num_check.2 hd.prec
  have s2 := (width_iff _ (pos + d.flags.length) d.width.value (precText d.prec ++ d.conv :: r4)
    (pos + d.flags.length + d.width.text.length) hr1').2
    ⟨d.width, rfl, w1, (by
        intro ds hds
        have := hd.width
        rw [hds] at this
        exact ⟨this.1, this.2.1⟩),
      (by
        intro _
        refine ⟨by simp, ?_⟩
        intro hx; exact (hh2 42 hx).2.2 rfl),
      (fun _ x hx => (hh2 x hx).1), rfl, rfl⟩
  have s3 := (precision_iff (precText d.prec ++ d.conv :: r4)
    (pos + d.flags.length + d.width.text.length) d.prec.value (d.conv :: r4)
    (pos + d.flags.length + d.width.text.length + (precText d.prec).length)).2
    ⟨d.prec, rfl, q1,
      (by intro _; simpa using hf.2.2.2),
      (by intro _; simpa using hf.2.2.1),
      (by intro ds _ x hx; simp at hx; subst hx; exact hf.1), rfl, rfl⟩
  have s4 := (specifier_iff (d.conv :: r4)
    (pos + d.flags.length + d.width.text.length + (precText d.prec).length) (convOf d.conv) r4
    (pos + d.flags.length + d.width.text.length + (precText d.prec).length + 1)).2
    ⟨d.conv, rfl, hd.conv, rfl, rfl⟩
  have hpos : pos + d.text.length - 1 =
      pos + d.flags.length + d.width.text.length + (precText d.prec).length + 1 := by
    simp [Directive.text, hdate, dateText]; omega
  rw [hpos]
  simp only [s1, s2, s3, s4, bind_ok]
  congr 1
  funext ⟨dtf, r5, p5⟩
  have s6 := (create_ok (fs := flagSet d.flags) (dtf := dtf) (ctx := ⟨_, _, _, _⟩)).2 ⟨w2, q2, rfl⟩
  simp only [s6, bind_ok]

theorem forPattern_duplicate {env : DateSyntax} {fl : JStr} {c : JChar} {rest : JStr} (pos : Nat)
    (h1 : ∀ x ∈ fl, x ∈ flagChars) (h2 : fl.Nodup) (hc : c ∈ fl) :
    Compiler.forPattern env (fl ++ c :: rest) pos =
      .error (.syntaxErr (.duplicateFlag c) (pos + fl.length)) := by
  cases fl with
  | nil => simp at hc
  | cons x fl =>
    have hx : x ≠ 37 := by
      rintro rfl
      exact absurd (h1 37 (by simp)) (by decide)
    have := flags_duplicate (x :: fl) c rest pos {} h1 h2 (by intro f _; cases f <;> rfl) (Or.inl hc)
    simp only [List.cons_append] at this ⊢
    simp only [Compiler.forPattern, if_neg hx, this, bind_error]

end FastPrintf
