/-
The error branches of the parser, each characterised by the text that leads to it.
-/
import Verif.Spec.Faults
import Verif.Proofs.Errors

namespace FastPrintf
open Spec

theorem flags_error {rest : JStr} {pos : Nat} {fs : Flags} {e : Err}
    (h : Compiler.flags rest pos fs = .error e) :
    ∃ fl c rest', rest = fl ++ c :: rest' ∧ (∀ x ∈ fl, x ∈ flagChars) ∧ fl.Nodup ∧
      (∀ f, FormatContext.flagChar f ∈ fl → fs.contains f = false) ∧
      (c ∈ fl ∨ ∃ f, c = FormatContext.flagChar f ∧ fs.contains f = true) ∧
      e = .syntaxErr (.duplicateFlag c) (pos + fl.length) := by
  induction rest generalizing pos fs with
  | nil => cases h
  | cons c rest ih =>
    unfold Compiler.flags at h
    cases hv : Flag.valueOf c with
    | none => rw [hv] at h; cases h
    | some f =>
      rw [hv] at h
      have hc := Flag.valueOf_eq_some.1 hv
      simp only at h
      split_ifs at h with hd
      · cases h
        exact ⟨[], c, rest, rfl, by simp, by simp, by simp, .inr ⟨f, hc, hd⟩, by simp⟩
      · obtain ⟨fl, c', rest', rfl, h2, h3, h4, h5, h6⟩ := ih h
        have hdf : fs.contains f = false := by simpa using hd
        have hnot : c ∉ fl := by
          intro hm
          have := h4 f (hc ▸ hm)
          simp [Flags.contains_add] at this
        refine ⟨c :: fl, c', rest', rfl, ?_, List.nodup_cons.2 ⟨hnot, h3⟩, ?_, ?_, ?_⟩
        · intro x hx
          rcases List.mem_cons.1 hx with rfl | hx
          · exact mem_flagChars.2 ⟨f, hc⟩
          · exact h2 x hx
        · intro g hg
          rcases List.mem_cons.1 hg with hg | hg
          · rw [hc] at hg; rw [flagChar_inj hg]; exact hdf
          · have := h4 g hg
            rw [Flags.contains_add] at this
            simp only [Bool.or_eq_false_iff] at this
            exact this.1
        · rcases h5 with h5 | ⟨g, rfl, hg⟩
          · exact .inl (List.mem_cons_of_mem _ h5)
          · rw [Flags.contains_add] at hg
            simp only [Bool.or_eq_true, decide_eq_true_eq] at hg
            rcases hg with hg | rfl
            · exact .inr ⟨g, rfl, hg⟩
            · left; rw [hc]; simp
        · rw [h6]; congr 1; simp; omega

theorem flags_error_iff {rest : JStr} {pos : Nat} {e : Err} :
    Compiler.flags rest pos {} = .error e ↔
      ∃ fl c rest', rest = fl ++ c :: rest' ∧ (∀ x ∈ fl, x ∈ flagChars) ∧ fl.Nodup ∧ c ∈ fl ∧
        e = .syntaxErr (.duplicateFlag c) (pos + fl.length) := by
  constructor
  · intro h
    obtain ⟨fl, c, rest', h1, h2, h3, -, h5, h6⟩ := flags_error h
    refine ⟨fl, c, rest', h1, h2, h3, h5.resolve_right ?_, h6⟩
    rintro ⟨f, -, hf⟩
    cases f <;> cases hf
  · rintro ⟨fl, c, rest', rfl, h2, h3, h4, rfl⟩
    exact flags_duplicate fl c rest' pos {} h2 h3 (by intro f _; cases f <;> rfl) (.inl h4)

theorem digits_unique {a b a' b' : JStr} (h : a ++ b = a' ++ b') (ha : DigitsRead a b) (ha' : DigitsRead a' b') :
    a = a' ∧ b = b' := by
  induction a generalizing a' with
  | nil =>
    cases a' with
    | nil => exact ⟨rfl, h⟩
    | cons c a' =>
      simp only [List.nil_append] at h
      exact absurd (ha'.digits c (by simp)) (ha.all c (by rw [h]; rfl))
  | cons c a ih =>
    cases a' with
    | nil =>
      simp only [List.nil_append] at h
      exact absurd (ha.digits c (by simp)) (ha'.all c (by rw [← h]; rfl))
    | cons c' a' =>
      simp only [List.cons_append, List.cons.injEq] at h
      obtain ⟨rfl, h⟩ := h
      obtain ⟨rfl, rfl⟩ := ih h ⟨fun x hx => ha.digits x (by simp [hx]), ha.all⟩
        ⟨fun x hx => ha'.digits x (by simp [hx]), ha'.all⟩
      exact ⟨rfl, rfl⟩

theorem takeDigits_read (s : JStr) : s = (Compiler.takeDigits s).1 ++ (Compiler.takeDigits s).2 ∧
    DigitsRead (Compiler.takeDigits s).1 (Compiler.takeDigits s).2 := by
  obtain ⟨h1, h2, h3⟩ := takeDigits_spec s
  exact ⟨h1, h2, h3⟩

theorem takeDigits_eq {ds rest : JStr} (h : DigitsRead ds rest) : Compiler.takeDigits (ds ++ rest) = (ds, rest) := by
  obtain ⟨h1, h2⟩ := takeDigits_read (ds ++ rest)
  obtain ⟨h3, h4⟩ := digits_unique h1 h h2
  exact (Prod.ext h3 h4).symm

theorem parseInt_none (ds : JStr) : Compiler.parseInt ds = none ↔ javaIntMax < decimalValue ds := by
  unfold Compiler.parseInt
  rw [digitsValue_eq]
  have : intMax = 2147483647 := rfl
  split <;> simp [javaIntMax] <;> omega

theorem not_digit_star : ¬ IsDigit (ch! '*') := by unfold IsDigit; omega
theorem not_digit_dot : ¬ IsDigit (ch! '.') := by unfold IsDigit; omega

theorem width_error_iff {rest : JStr} {pos : Nat} {e : Err} :
    Compiler.width rest pos = .error e ↔
      (rest = [] ∧ e = .syntaxErr (.unexpectedEnd .atWidth) pos) ∨
      ∃ ds rest', rest = ds ++ rest' ∧ ds ≠ [] ∧ DigitsRead ds rest' ∧ javaIntMax < decimalValue ds ∧
        e = .syntaxErr (.invalidWidth ds) pos := by
  cases rest with
  | nil =>
    simp only [Compiler.width, Except.error.injEq, true_and]
    constructor
    · intro h; exact .inl h.symm
    · rintro (h | ⟨ds, rest', h1, h2, -⟩)
      · exact h.symm
      · exact absurd (List.append_eq_nil_iff.1 h1.symm).1 h2
  | cons c rest =>
    unfold Compiler.width
    simp only [reduceCtorEq, false_and, false_or]
    obtain ⟨t1, t2⟩ := takeDigits_read (c :: rest)
    by_cases hs : c = ch! '*'
    · rw [if_pos hs]
      simp only [reduceCtorEq, false_iff, not_exists]
      rintro ds rest' ⟨h1, h2, h3, -⟩
      cases ds with
      | nil => exact h2 rfl
      | cons d ds =>
        simp only [List.cons_append, List.cons.injEq] at h1
        have := h3.digits d (by simp)
        rw [← h1.1, hs] at this
        exact not_digit_star this
    · rw [if_neg hs]
      generalize hr : Compiler.takeDigits (c :: rest) = r at t1 t2
      obtain ⟨w, r'⟩ := r
      simp only at t1 t2 ⊢
      constructor
      · intro h
        split_ifs at h with hw
        cases hp : Compiler.parseInt w with
        | some n => rw [hp] at h; cases h
        | none =>
          rw [hp] at h
          cases h
          exact ⟨w, r', t1, hw, t2, (parseInt_none w).1 hp, rfl⟩
      · rintro ⟨ds, rest', h1, h2, h3, h4, rfl⟩
        obtain ⟨rfl, rfl⟩ := digits_unique (t1.symm.trans h1) t2 h3
        rw [if_neg h2, (parseInt_none w).2 h4]

theorem precision_error_iff {rest : JStr} {pos : Nat} {e : Err} :
    Compiler.precision rest pos = .error e ↔
      (rest = js! "." ∧ e = .syntaxErr (.unexpectedEnd .afterDot) (pos + 1)) ∨
      ∃ ds rest', rest = js! "." ++ (ds ++ rest') ∧ ds ≠ [] ∧ DigitsRead ds rest' ∧
        javaIntMax < decimalValue ds ∧ e = .syntaxErr (.invalidPrecision ds) (pos + 1) := by
  cases rest with
  | nil => simp [Compiler.precision]
  | cons c rest =>
    unfold Compiler.precision
    simp only
    by_cases hdot : c = ch! '.'
    · subst hdot
      simp only [ne_eq, not_true_eq_false, if_false, List.cons_append, List.nil_append, List.cons.injEq, true_and]
      cases rest with
      | nil =>
        simp only [Except.error.injEq, true_and]
        constructor
        · intro h; exact .inl h.symm
        · rintro (h | ⟨ds, rest', h1, h2, -⟩)
          · exact h.symm
          · exact absurd (List.append_eq_nil_iff.1 h1.symm).1 h2
      | cons c rest =>
        simp only [reduceCtorEq, false_and, false_or]
        obtain ⟨t1, t2⟩ := takeDigits_read (c :: rest)
        by_cases hs : c = ch! '*'
        · rw [if_pos hs]
          simp only [reduceCtorEq, false_iff, not_exists]
          rintro ds rest' ⟨h1, h2, h3, -⟩
          cases ds with
          | nil => exact h2 rfl
          | cons d ds =>
            simp only [List.cons_append, List.cons.injEq] at h1
            have := h3.digits d (by simp)
            rw [← h1.1, hs] at this
            exact not_digit_star this
        · rw [if_neg hs]
          generalize hr : Compiler.takeDigits (c :: rest) = r at t1 t2
          obtain ⟨w, r'⟩ := r
          simp only at t1 t2 ⊢
          constructor
          · intro h
            split_ifs at h with hw
            cases hp : Compiler.parseInt w with
            | some n => rw [hp] at h; cases h
            | none =>
              rw [hp] at h
              cases h
              exact ⟨w, r', t1, hw, t2, (parseInt_none w).1 hp, rfl⟩
          · rintro ⟨ds, rest', h1, h2, h3, h4, rfl⟩
            obtain ⟨rfl, rfl⟩ := digits_unique (t1.symm.trans h1) t2 h3
            rw [if_neg h2, (parseInt_none w).2 h4]
    · rw [if_pos hdot]
      simp [hdot]

theorem specifier_error_iff {rest : JStr} {pos : Nat} {e : Err} :
    Compiler.specifier rest pos = .error e ↔
      (rest = [] ∧ e = .syntaxErr (.unexpectedEnd .atSpecifier) pos) ∨
      ∃ c rest', rest = c :: rest' ∧ c ∉ convChars ∧ e = .syntaxErr (.unknownSpecifier c) pos := by
  cases rest with
  | nil => simp [Compiler.specifier, eq_comm]
  | cons c rest =>
    unfold Compiler.specifier
    simp only [reduceCtorEq, false_and, false_or, List.cons.injEq]
    cases hv : Specifier.valueOf c with
    | some sp =>
      have := (specifier_valueOf_some.1 hv).1
      simp only [reduceCtorEq, false_iff, not_exists]
      rintro c' rest' ⟨⟨rfl, rfl⟩, h, -⟩
      exact h this
    | none =>
      have hc : c ∉ convChars := by
        intro h
        rw [specifier_valueOf_some.2 ⟨h, rfl⟩] at hv
        cases hv
      simp only [Except.error.injEq]
      constructor
      · intro h; exact ⟨c, rest, ⟨rfl, rfl⟩, hc, h.symm⟩
      · rintro ⟨c', rest', ⟨rfl, rfl⟩, -, h⟩; exact h.symm

theorem closedBy_unique {a b a' b' : JStr} (h : a ++ 125 :: b = a' ++ 125 :: b') (ha : ClosedBy a)
    (ha' : ClosedBy a') : a = a' ∧ b = b' := by
  rcases List.append_eq_append_iff.1 h with ⟨x, rfl, hx⟩ | ⟨x, rfl, hx⟩
  · cases x with
    | nil => simp only [List.nil_append, List.cons.injEq, true_and] at hx; simp [hx]
    | cons y x =>
      simp only [List.cons_append, List.cons.injEq] at hx
      obtain ⟨rfl, -⟩ := hx
      have := ha'.2 a x rfl
      have := ha.1
      omega
  · cases x with
    | nil => simp only [List.nil_append, List.cons.injEq, true_and] at hx; simp [hx]
    | cons y x =>
      simp only [List.cons_append, List.cons.injEq] at hx
      obtain ⟨rfl, -⟩ := hx
      have := ha.2 a' x rfl
      have := ha'.1
      omega

theorem scanBrace_closed {s : JStr} {n : Nat} : Compiler.scanBrace s false 0 = some n ↔
    ∃ a b, s = a ++ 125 :: b ∧ a.length = n ∧ ClosedBy a := by
  rw [scanBrace_iff]
  constructor
  · rintro ⟨m, rfl, pre, post, h1, h2, h3, h4⟩
    exact ⟨pre, post, h1, by omega, by simpa using h3, fun a b h => by simpa using h4 a b h⟩
  · rintro ⟨a, b, h1, h2, h3, h4⟩
    exact ⟨n, by omega, a, b, h1, h2, by simpa using h3, fun x y h => by simpa using h4 x y h⟩

theorem date_error_iff {env : DateSyntax} {rest : JStr} {pos : Nat} {e : Err} :
    Compiler.dateTimeFormatter env rest pos = .error e ↔
      (∃ r, rest = ch! '{' :: r ∧ (∀ a b, r = a ++ 125 :: b → ¬ ClosedBy a) ∧
        e = .syntaxErr .unclosedDatePattern pos) ∨
      (∃ r, rest = ch! '{' :: ch! '}' :: r ∧ e = .syntaxErr .emptyDatePattern (pos + 1)) ∨
      ∃ p r, rest = ch! '{' :: (p ++ ch! '}' :: r) ∧ p ≠ [] ∧ ClosedBy p ∧ env.valid p = false ∧
        e = .syntaxErr (.invalidDatePattern p) (pos + 1) := by
  cases rest with
  | nil => simp [Compiler.dateTimeFormatter]
  | cons c rest =>
    unfold Compiler.dateTimeFormatter
    simp only
    by_cases hb : c = ch! '{'
    swap
    · rw [if_pos hb]; simp [hb]
    subst hb
    simp only [ne_eq, not_true_eq_false, if_false, List.cons.injEq, true_and]
    cases hs : Compiler.scanBrace rest false 0 with
    | none =>
      have hno : ∀ a b, rest = a ++ 125 :: b → ¬ ClosedBy a := by
        intro a b h hc
        have := scanBrace_closed.2 ⟨a, b, h, rfl, hc⟩
        rw [hs] at this; cases this
      simp only [Except.error.injEq]
      constructor
      · intro h; exact .inl ⟨rest, rfl, hno, h.symm⟩
      · rintro (⟨r, -, -, h⟩ | ⟨r, h, -⟩ | ⟨p, r, h, -, hc, -⟩)
        · exact h.symm
        · exact absurd ⟨by simp, by simp⟩ (hno [] r (by simpa using h))
        · exact absurd hc (hno p r h)
    | some n =>
      obtain ⟨a, b, rfl, rfl, hc⟩ := scanBrace_closed.1 hs
      simp only [List.take_left]
      by_cases ha : a = []
      · subst ha
        rw [if_pos rfl]
        simp only [List.nil_append, Except.error.injEq]
        constructor
        · intro h; exact .inr (.inl ⟨b, rfl, h.symm⟩)
        · rintro (⟨r, rfl, h, -⟩ | ⟨r, -, h⟩ | ⟨p, r, h, hp, hc', -⟩)
          · exact absurd hc (h [] b rfl)
          · exact h.symm
          · exact absurd (closedBy_unique (a := []) h hc hc').1.symm hp
      · rw [if_neg ha]
        constructor
        · intro h
          split_ifs at h with hv
          cases h
          exact .inr (.inr ⟨a, b, rfl, ha, hc, by simpa using hv, rfl⟩)
        · rintro (⟨r, rfl, h, -⟩ | ⟨r, h, -⟩ | ⟨p, r, h, hp, hc', hv, rfl⟩)
          · exact absurd hc (h a b rfl)
          · exact absurd (closedBy_unique (a' := []) h hc ⟨by simp, by simp⟩).1 ha
          · obtain ⟨rfl, rfl⟩ := closedBy_unique h hc hc'
            rw [if_neg (by simp [hv])]


/-! ### The steps that succeed, in the same terms -/

theorem flags_read {rest : JStr} {pos : Nat} {fs : Flags} {r : JStr} {q : Nat} :
    Compiler.flags rest pos {} = .ok (fs, r, q) ↔
      ∃ fl, rest = fl ++ r ∧ FlagsRead fl r ∧ fs = flagSet fl ∧ q = pos + fl.length := by
  rw [flags_iff]
  constructor
  · rintro ⟨fl, h1, h2, h3, -, h5, h6, h7⟩
    exact ⟨fl, h1, ⟨h2, h3, h5⟩, flagSet_eq h6, h7⟩
  · rintro ⟨fl, h1, ⟨h2, h3, h5⟩, rfl, h7⟩
    refine ⟨fl, h1, h2, h3, ?_, h5, ?_, h7⟩
    · intro f _; cases f <;> rfl
    · intro f
      rw [flagSet_contains]
      cases f <;> simp [Flags.contains]

theorem javaIntMax_le {n : Nat} : (n : Int) ≤ intMax ↔ n ≤ javaIntMax := by
  have : intMax = 2147483647 := rfl
  unfold javaIntMax
  omega

theorem width_read {rest : JStr} {pos : Nat} {v : Int} {r : JStr} {q : Nat} (hf : rest.head? ≠ some 48) :
    Compiler.width rest pos = .ok (v, r, q) ↔
      ∃ w : Num, rest = w.text ++ r ∧ WidthRead w r ∧ v = w.value ∧ q = pos + w.text.length := by
  rw [width_iff _ _ _ _ _ hf]
  constructor
  · rintro ⟨w, h1, h2, h3, h4, h5, h6, h7⟩
    refine ⟨w, h1, ?_, h6, h7⟩
    cases w with
    | absent => exact ⟨(h4 rfl).1, (h4 rfl).2, h5 (by simp)⟩
    | star => trivial
    | digits ds => exact ⟨(h3 ds rfl).1, ⟨h2.1, h5 (by simp)⟩, javaIntMax_le.1 h2.2⟩
  · rintro ⟨w, rfl, h2, h6, h7⟩
    cases w with
    | absent => exact ⟨.absent, rfl, trivial, by simp, fun _ => ⟨h2.1, h2.2.1⟩, fun _ => h2.2.2, h6, h7⟩
    | star => exact ⟨.star, rfl, trivial, by simp, by simp, by simp, h6, h7⟩
    | digits ds =>
      refine ⟨.digits ds, rfl, ⟨h2.2.1.digits, javaIntMax_le.2 h2.2.2⟩, ?_, by simp, fun _ => h2.2.1.all, h6, h7⟩
      intro ds' h
      cases h
      refine ⟨h2.1, ?_⟩
      cases ds with
      | nil => simp
      | cons c ds => simpa [Num.text] using hf

theorem prec_read {rest : JStr} {pos : Nat} {v : Int} {r : JStr} {q : Nat} :
    Compiler.precision rest pos = .ok (v, r, q) ↔
      ∃ p : Num, rest = precText p ++ r ∧ PrecRead p r ∧ v = p.value ∧ q = pos + (precText p).length := by
  rw [precision_iff]
  constructor
  · rintro ⟨p, h1, h2, h3, h4, h5, h6, h7⟩
    refine ⟨p, h1, ?_, h6, h7⟩
    cases p with
    | absent => exact h3 rfl
    | star => trivial
    | digits ds => exact ⟨⟨h2.1, h5 ds rfl⟩, javaIntMax_le.1 h2.2, fun h => h4 (by rw [h])⟩
  · rintro ⟨p, rfl, h2, h6, h7⟩
    cases p with
    | absent => exact ⟨.absent, rfl, trivial, fun _ => h2, by simp, by simp, h6, h7⟩
    | star => exact ⟨.star, rfl, trivial, by simp, by simp, by simp, h6, h7⟩
    | digits ds =>
      refine ⟨.digits ds, rfl, ⟨h2.1.digits, javaIntMax_le.2 h2.2.1⟩, by simp, ?_, ?_, h6, h7⟩
      · intro h; cases h; exact h2.2.2 rfl
      · intro ds' h; cases h; exact h2.1.all

/-- `forPattern` unless it is `%%` or the end. -/
theorem forPattern_do {env : DateSyntax} {rest : JStr} (pos : Nat) (h1 : rest ≠ []) (h2 : rest.head? ≠ some 37) :
    Compiler.forPattern env rest pos = (do
      let (fs, rest1, pos1) ← Compiler.flags rest pos {}
      let (w, rest2, pos2) ← Compiler.width rest1 pos1
      let (p, rest3, pos3) ← Compiler.precision rest2 pos2
      let (sp, rest4, pos4) ← Compiler.specifier rest3 pos3
      let (dtf, rest5, pos5) ← Compiler.datePart env sp rest4 pos4
      let ctx ← FormatContext.create fs w p dtf
      return (.dflt sp ctx, rest5, pos5)) := by
  cases rest with
  | nil => exact absurd rfl h1
  | cons c rest =>
    have : c ≠ 37 := by simpa using h2
    unfold Compiler.forPattern
    simp only [if_neg this]

theorem Spec.FlagsRead.ne48 {fl r : JStr} (h : FlagsRead fl r) : r.head? ≠ some 48 :=
  fun hh => h.all 48 hh (by decide)

/-- What `forPattern` does once the parts before the conversion have been read. -/
theorem forPattern_parts {env : DateSyntax} {fl : JStr} {w p : Num} {after : JStr} (h : PartsRead fl w p after)
    (hne : fl ++ w.text ++ precText p ++ after ≠ []) (pos : Nat) :
    Compiler.forPattern env (fl ++ w.text ++ precText p ++ after) pos = (do
      let (sp, rest4, pos4) ← Compiler.specifier after (pos + (fl ++ w.text ++ precText p).length)
      let (dtf, rest5, pos5) ← Compiler.datePart env sp rest4 pos4
      let ctx ← FormatContext.create (flagSet fl) w.value p.value dtf
      return (.dflt sp ctx, rest5, pos5)) := by
  rw [forPattern_do pos hne h.notPercent]
  have hf := h.flags
  rw [List.append_assoc] at hf
  have s1 : Compiler.flags (fl ++ w.text ++ precText p ++ after) pos {} =
      .ok (flagSet fl, w.text ++ (precText p ++ after), pos + fl.length) :=
    flags_read.2 ⟨fl, by simp, hf, rfl, rfl⟩
  have s2 := (width_read (pos := pos + fl.length) (v := w.value) hf.ne48).2 ⟨w, rfl, h.width, rfl, rfl⟩
  have s3 := (prec_read (pos := pos + fl.length + w.text.length) (v := p.value)).2 ⟨p, rfl, h.prec, rfl, rfl⟩
  simp only [s1, s2, s3, bind_ok]
  have hp : pos + fl.length + w.text.length + (precText p).length = pos + (fl ++ w.text ++ precText p).length := by
    simp; omega
  rw [hp]

/-- The cap is checked last. -/
theorem create_error {fs : Flags} {w p : Num} {dtf : Option JStr} {e : Err} :
    FormatContext.create fs w.value p.value dtf = .error e ↔
      ∃ name v, e = .printf (.exceedsMaximum name v) ∧ OverCap w p name v := by
  have key : ∀ (name : NumName) (n : Num), (FormatContext.checkValue name n.value = .ok () ∧
        ∀ ds, n = .digits ds → decimalValue ds ≤ numberCap) ∨
      (∃ ds, n = .digits ds ∧ numberCap < decimalValue ds ∧
        FormatContext.checkValue name n.value = .error (.printf (.exceedsMaximum name (decimalValue ds)))) := by
    intro name n
    cases n with
    | absent => left; exact ⟨rfl, by simp⟩
    | star => left; exact ⟨rfl, by simp⟩
    | digits ds =>
      by_cases h : decimalValue ds ≤ numberCap
      · left
        refine ⟨?_, by rintro _ ⟨⟩; exact h⟩
        rw [checkValue_ok]
        simp only [Num.value, numberCap] at *
        omega
      · right
        refine ⟨ds, rfl, by omega, ?_⟩
        have hv : (Num.digits ds).value = (decimalValue ds : Int) := rfl
        have hm : MAX_WIDTH_OR_PRECISION = 65536 := rfl
        have hc : numberCap = 65536 := rfl
        unfold FormatContext.checkValue
        rw [if_neg (by omega), if_pos (by omega), hv]
  unfold FormatContext.create
  rcases key .width w with ⟨kw, kw'⟩ | ⟨ds, kw', kw'', kw⟩
  · rcases key .precision p with ⟨kp, kp'⟩ | ⟨ds, kp', kp'', kp⟩
    · simp only [kw, kp, bind_ok, pure_eq_ok, reduceCtorEq, false_iff, not_exists, not_and]
      rintro name v - (⟨h, hlt⟩ | ⟨-, h, hlt⟩)
      · exact absurd (kw' _ h) (by omega)
      · exact absurd (kp' _ h) (by omega)
    · simp only [kw, kp, bind_ok, bind_error, Except.error.injEq]
      constructor
      · intro h; exact ⟨_, _, h.symm, .precision kw' kp' kp''⟩
      · rintro ⟨name, v, rfl, (⟨h, hlt⟩ | ⟨-, h, hlt⟩)⟩
        · exact absurd (kw' _ h) (by omega)
        · rw [kp'] at h; cases h; rfl
  · simp only [kw, bind_error, Except.error.injEq]
    constructor
    · intro h; exact ⟨_, _, h.symm, .width kw' kw''⟩
    · rintro ⟨name, v, rfl, (⟨h, hlt⟩ | ⟨h1, h, hlt⟩)⟩
      · rw [kw'] at h; cases h; rfl
      · exact absurd (h1 _ kw') (by omega)


/-! ### `forPattern` -/

theorem flag_ne_percent {fl : JStr} (h : ∀ c ∈ fl, c ∈ flagChars) (hne : fl ≠ []) (t : JStr) :
    (fl ++ t).head? ≠ some 37 := by
  cases fl with
  | nil => exact absurd rfl hne
  | cons c fl =>
    simp only [List.cons_append, List.head?_cons, ne_eq, Option.some.injEq]
    rintro rfl
    exact absurd (h 37 (by simp)) (by decide)

/-- Flags and a width, and then a text that does not begin with `%`: it is not `%%`. -/
theorem fl_width_ne_percent {fl : JStr} (h : ∀ c ∈ fl, c ∈ flagChars) {w : Num} {t : JStr}
    (hw : WidthRead w t) (ht : t.head? ≠ some 37) : (fl ++ (w.text ++ t)).head? ≠ some 37 := by
  by_cases hne : fl = []
  · subst hne
    cases w with
    | absent => simpa [Num.text] using ht
    | star => simp [Num.text]
    | digits ds =>
      obtain ⟨hd, ⟨ha, -⟩, -⟩ := hw
      cases ds with
      | nil => exact absurd rfl hd
      | cons c ds =>
        simp only [Num.text, List.nil_append, List.cons_append, List.head?_cons, ne_eq, Option.some.injEq]
        rintro rfl
        have := ha 37 (by simp)
        exact absurd this (by unfold IsDigit; decide)
  · exact flag_ne_percent h hne _

/-- The text of a directive that is too large, after its `%`. -/
theorem dir_tail {d : Directive} {rest after : JStr} :
    37 :: rest = d.text ++ after ↔
      rest = d.flags ++ d.width.text ++ precText d.prec ++ d.conv :: (dateText d.date ++ after) := by
  simp [Directive.text]

theorem forPattern_fault {env : DateSyntax} {part after : JStr} {why : SyntaxWhy} (h : Fault env part after why)
    (pos : Nat) : Compiler.forPattern env (part ++ after) pos = .error (.syntaxErr why (pos + part.length)) := by
  have date : ∀ {fl w p c rest e}, PartsRead fl w p (c :: rest) → IsDateConv c →
      Compiler.dateTimeFormatter env rest (pos + (fl ++ w.text ++ precText p).length + 1) = .error e →
      Compiler.forPattern env (fl ++ w.text ++ precText p ++ c :: rest) pos = .error e := by
    intro fl w p c rest e hp hc hd
    rw [forPattern_parts hp (by simp)]
    have hcc : c ∈ convChars := by rcases hc with rfl | rfl <;> decide
    have s1 := (specifier_iff (c :: rest) (pos + (fl ++ w.text ++ precText p).length) (convOf c) rest _).2
      ⟨c, rfl, hcc, rfl, rfl⟩
    simp only [s1, bind_ok]
    unfold Compiler.datePart
    rw [if_pos ((isDateTime_iff hcc).2 hc), hd]
    rfl
  cases h with
  | afterPercent => rfl
  | @duplicateFlag _ c rest h1 h2 h3 =>
    have hne : part ≠ [] := by rintro rfl; simp at h3
    rw [forPattern_do pos (by simp) (flag_ne_percent h1 hne _),
      flags_error_iff.2 ⟨part, c, rest, rfl, h1, h2, h3, rfl⟩]
    rfl
  | @atWidth _ h1 h2 =>
    rw [forPattern_do pos (by simpa using h2) (flag_ne_percent h1.flags h2 _), flags_read.2 ⟨part, rfl, h1, rfl, rfl⟩]
    simp only [bind_ok]
    rw [width_error_iff.2 (.inl ⟨rfl, rfl⟩)]
    rfl
  | @width _ ds rest h1 h2 h3 h4 =>
    have hne : part ++ (ds ++ rest) ≠ [] := by simp [h2]
    have hnp : (part ++ (ds ++ rest)).head? ≠ some 37 := by
      by_cases hfl : part = []
      · subst hfl
        cases ds with
        | nil => exact absurd rfl h2
        | cons c ds =>
          simp only [List.nil_append, List.cons_append, List.head?_cons, ne_eq, Option.some.injEq]
          rintro rfl
          exact absurd (h3.digits 37 (by simp)) (by unfold IsDigit; decide)
      · exact flag_ne_percent h1.flags hfl _
    rw [forPattern_do pos hne hnp, flags_read.2 ⟨part, rfl, h1, rfl, rfl⟩]
    simp only [bind_ok]
    rw [width_error_iff.2 (.inr ⟨ds, rest, rfl, h2, h3, h4, rfl⟩)]
    rfl
  | @afterDot fl w h1 h2 =>
    have hnp := fl_width_ne_percent h1.flags h2 (by decide)
    have e1 : fl ++ w.text ++ js! "." ++ [] = fl ++ (w.text ++ js! ".") := by simp
    rw [e1, forPattern_do pos (by simp) hnp, flags_read.2 ⟨fl, rfl, h1, rfl, rfl⟩]
    simp only [bind_ok]
    rw [(width_read h1.ne48).2 ⟨w, rfl, h2, rfl, rfl⟩]
    simp only [bind_ok]
    rw [precision_error_iff.2 (.inl ⟨rfl, rfl⟩)]
    simp [bind_error]
    omega
  | @precision fl ds rest w h1 h2 h3 h4 h5 =>
    rw [List.append_assoc] at h1
    have hnp := fl_width_ne_percent h1.flags h2 (by simp)
    have e1 : fl ++ w.text ++ js! "." ++ (ds ++ rest) = fl ++ (w.text ++ (js! "." ++ (ds ++ rest))) := by simp
    rw [e1, forPattern_do pos (by simp) hnp, flags_read.2 ⟨fl, rfl, h1, rfl, rfl⟩]
    simp only [bind_ok]
    rw [(width_read h1.ne48).2 ⟨w, rfl, h2, rfl, rfl⟩]
    simp only [bind_ok]
    rw [precision_error_iff.2 (.inr ⟨ds, rest, rfl, h3, h4, h5, rfl⟩)]
    simp [bind_error]
    omega
  | @atSpecifier fl w p h1 =>
    have hne : fl ++ w.text ++ precText p ++ [] ≠ [] := by
      intro h0
      have hp : precText p ++ [] = [] := by simp_all
      have hw : w.text = [] := by simp_all
      have := h1.width
      cases w with
      | absent => exact this.1 hp
      | star => simp [Num.text] at hw
      | digits ds => exact this.1 hw
    rw [forPattern_parts h1 hne, specifier_error_iff.2 (.inl ⟨rfl, rfl⟩)]
    rfl
  | @specifier fl w p c rest h1 h2 =>
    rw [forPattern_parts h1 (by simp), specifier_error_iff.2 (.inr ⟨c, rest, rfl, h2, rfl⟩)]
    rfl
  | @unclosedDate fl w p c rest h1 h2 h3 =>
    have := date h1 h2 (date_error_iff.2 (.inl ⟨rest, rfl, h3, rfl⟩))
    simpa [Nat.add_assoc] using this
  | @emptyDate fl w p c rest h1 h2 =>
    have := date h1 h2 (date_error_iff.2 (.inr (.inl ⟨rest, rfl, rfl⟩)))
    simpa [Nat.add_assoc] using this
  | @invalidDate fl w p c pattern rest h1 h2 h3 h4 h5 =>
    have := date h1 h2 (date_error_iff.2 (.inr (.inr ⟨pattern, rest, rfl, h3, h4, h5, rfl⟩)))
    simpa [Nat.add_assoc] using this

theorem forPattern_tooLarge {env : DateSyntax} {d : Directive} {after : JStr} {name : NumName} {v : Int}
    (h : TooLarge env d after name v) {rest : JStr}
    (hr : 37 :: rest = d.text ++ after) (pos : Nat) :
    Compiler.forPattern env rest pos = .error (.printf (.exceedsMaximum name v)) := by
  rw [dir_tail.1 hr, forPattern_parts h.parts (by simp),
    (specifier_iff _ _ (convOf d.conv) (dateText d.date ++ after) _).2 ⟨d.conv, rfl, h.conv, rfl, rfl⟩]
  simp only [bind_ok]
  have hd : ∃ q, Compiler.datePart env (convOf d.conv) (dateText d.date ++ after)
      (pos + (d.flags ++ d.width.text ++ precText d.prec).length + 1) = .ok (d.date, after, q) := by
    unfold Compiler.datePart
    by_cases hdt : (convOf d.conv).isDateTime = true
    · rw [if_pos hdt]
      refine ⟨_, (dateTimeFormatter_iff _ _ _ _ _ _).2 ⟨rfl, fun p hp => (h.date p hp).2, ?_, rfl⟩⟩
      exact h.all ((isDateTime_iff h.conv).1 hdt)
    · rw [if_neg hdt]
      have : d.date = none := by
        cases hd : d.date with
        | none => rfl
        | some p => exact absurd ((isDateTime_iff h.conv).2 (h.date p hd).1) hdt
      rw [this]
      exact ⟨_, rfl⟩
  obtain ⟨q, hd⟩ := hd
  rw [hd]
  simp only [bind_ok]
  rw [create_error.2 ⟨name, v, rfl, h.over⟩]
  rfl

theorem forPattern_error_iff {env : DateSyntax} {rest : JStr} {pos : Nat} {e : Err} :
    Compiler.forPattern env rest pos = .error e ↔
      (∃ part after why, rest = part ++ after ∧ Fault env part after why ∧
        e = .syntaxErr why (pos + part.length)) ∨
      (∃ name v d after, e = .printf (.exceedsMaximum name v) ∧ 37 :: rest = d.text ++ after ∧
        TooLarge env d after name v) := by
  constructor
  · intro h
    by_cases hne : rest = []
    · subst hne
      cases h
      exact .inl ⟨[], [], _, rfl, .afterPercent, rfl⟩
    by_cases hnp : rest.head? = some 37
    · cases rest with
      | nil => exact absurd rfl hne
      | cons c rest =>
        simp only [List.head?_cons, Option.some.injEq] at hnp
        unfold Compiler.forPattern at h
        simp only at h
        rw [if_pos hnp] at h
        cases h
    rw [forPattern_do pos hne hnp] at h
    rcases bind_eq_error.1 h with h | ⟨⟨fs, r1, p1⟩, h1, h⟩
    · obtain ⟨fl, c, r, rfl, a1, a2, a3, rfl⟩ := flags_error_iff.1 h
      exact .inl ⟨fl, c :: r, _, rfl, .duplicateFlag a1 a2 a3, rfl⟩
    dsimp only at h
    obtain ⟨fl, rfl, a1, rfl, rfl⟩ := flags_read.1 h1
    rcases bind_eq_error.1 h with h | ⟨⟨w, r2, p2⟩, h2, h⟩
    · rcases width_error_iff.1 h with ⟨rfl, rfl⟩ | ⟨ds, r, rfl, b1, b2, b3, rfl⟩
      · exact .inl ⟨fl, [], _, rfl, .atWidth a1 (by simpa using hne), rfl⟩
      · exact .inl ⟨fl, ds ++ r, _, rfl, .width a1 b1 b2 b3, rfl⟩
    dsimp only at h
    obtain ⟨w, rfl, b1, rfl, rfl⟩ := (width_read a1.ne48).1 h2
    rcases bind_eq_error.1 h with h | ⟨⟨p, r3, p3⟩, h3, h⟩
    · rcases precision_error_iff.1 h with ⟨rfl, rfl⟩ | ⟨ds, r, rfl, c1, c2, c3, rfl⟩
      · refine .inl ⟨fl ++ w.text ++ js! ".", [], _, by simp, .afterDot a1 b1, ?_⟩
        simp; omega
      · refine .inl ⟨fl ++ w.text ++ js! ".", ds ++ r, _, by simp, .precision (by simpa using a1) b1 c1 c2 c3, ?_⟩
        simp; omega
    dsimp only at h
    obtain ⟨p, rfl, c1, rfl, rfl⟩ := prec_read.1 h3
    have parts : PartsRead fl w p r3 := ⟨by simpa using a1, b1, c1, by simpa using hnp⟩
    rcases bind_eq_error.1 h with h | ⟨⟨sp, r4, p4⟩, h4, h⟩
    · rcases specifier_error_iff.1 h with ⟨rfl, rfl⟩ | ⟨c, r, rfl, d1, rfl⟩
      · refine .inl ⟨fl ++ w.text ++ precText p, [], _, by simp, .atSpecifier parts, ?_⟩
        simp; omega
      · refine .inl ⟨fl ++ w.text ++ precText p, c :: r, _, by simp, .specifier parts d1, ?_⟩
        simp; omega
    dsimp only at h
    obtain ⟨cv, rfl, d2, rfl, rfl⟩ := (specifier_iff _ _ _ _ _).1 h4
    rcases bind_eq_error.1 h with h | ⟨⟨dtf, r5, p5⟩, h5, hl⟩
    · unfold Compiler.datePart at h
      by_cases hdt : (convOf cv).isDateTime = true
      · rw [if_pos hdt] at h
        have hc := (isDateTime_iff d2).1 hdt
        rcases date_error_iff.1 h with ⟨r, rfl, f1, rfl⟩ | ⟨r, rfl, rfl⟩ | ⟨q, r, rfl, f1, f2, f3, rfl⟩
        · refine .inl ⟨_, _, _, ?_, .unclosedDate parts hc f1, ?_⟩
          · simp
          · simp; omega
        · refine .inl ⟨_, _, _, ?_, .emptyDate parts hc, ?_⟩
          · simp
          · simp; omega
        · refine .inl ⟨_, _, _, ?_, .invalidDate parts hc f1 f2 f3, ?_⟩
          · simp
          · simp; omega
      · rw [if_neg hdt] at h; cases h
    dsimp only at hl
    have hdate : r4 = dateText dtf ++ r5 ∧ (∀ q, dtf = some q → IsDateConv cv ∧ DateOk env q) ∧
        (IsDateConv cv → dtf = none → r5.head? ≠ some 123) := by
      unfold Compiler.datePart at h5
      by_cases hdt : (convOf cv).isDateTime = true
      · rw [if_pos hdt] at h5
        obtain ⟨k1, k2, k3, -⟩ := (dateTimeFormatter_iff _ _ _ _ _ _).1 h5
        exact ⟨k1, fun q hq => ⟨(isDateTime_iff d2).1 hdt, k2 q hq⟩, fun _ => k3⟩
      · rw [if_neg hdt] at h5
        cases h5
        exact ⟨rfl, by simp, fun hc => absurd ((isDateTime_iff d2).2 hc) hdt⟩
    obtain ⟨rfl, k2, k3⟩ := hdate
    rcases bind_eq_error.1 hl with hl | ⟨ctx, -, hl⟩
    · obtain ⟨name, v, rfl, hov⟩ := create_error.1 hl
      refine .inr ⟨name, v, ⟨fl, w, p, cv, dtf⟩, r5, rfl, ?_, ⟨parts, d2, k2, k3, hov⟩⟩
      simp [dir_tail]
    · cases hl
  · rintro (⟨part, after, why, rfl, h, rfl⟩ | ⟨name, v, d, after, rfl, h1, h2⟩)
    · exact forPattern_fault h pos
    · exact forPattern_tooLarge h2 h1 pos


/-! ### Whole format strings -/

theorem parseNext_error {env : DateSyntax} {fuel : Nat} {rest : JStr} {pos : Nat} {e : Err}
    (hf : rest.length < fuel) (h : Compiler.parseNext env fuel rest pos = .error e) :
    ∃ pre ps t, Reading env pre ps ∧ rest = pre ++ 37 :: t ∧
      Compiler.forPattern env t (pos + pre.length + 1) = .error e := by
  induction fuel generalizing rest pos with
  | zero => omega
  | succ fuel ih =>
    unfold Compiler.parseNext at h
    cases rest with
    | nil => cases h
    | cons c rest =>
      simp only [List.length_cons] at hf
      simp only at h
      by_cases hc : c = 37
      · rw [if_pos hc] at h
        rcases bind_eq_error.1 h with h | ⟨⟨a, r1, p1⟩, h1, h⟩
        · exact ⟨[], [], rest, reading_nil.2 rfl, by rw [hc]; rfl, by simpa using h⟩
        dsimp only at h
        obtain ⟨p, g1, g2, g3, g4, rfl, g6⟩ := (forPattern_iff _ _ _ _ _ _).1 h1
        have hl := congrArg List.length g2
        have := text_length g1
        simp only [List.length_cons, List.length_append] at hl
        rcases bind_eq_error.1 h with h | ⟨as, h2, h⟩
        · obtain ⟨pre, ps, t, k1, k2, k3⟩ := ih (by omega) h
          refine ⟨p.text ++ pre, p :: ps, t, (reading_cons g1).2 ⟨pre, rfl, g3, ?_, k1⟩, by rw [hc, g2, k2]; simp, ?_⟩
          · rw [k2] at g4
            intro d hd1 hd2 hd3
            have := g4 d hd1 hd2 hd3
            cases pre with
            | nil => simp
            | cons x pre => simpa using this
          · rw [← k3]; congr 1; simp; omega
        · cases h
      · rw [if_neg hc] at h
        obtain ⟨t1, t2, t3⟩ := literalRun_spec (c :: rest)
        have hcl : (Compiler.literalRun (c :: rest)).1 ≠ [] := by
          unfold Compiler.literalRun
          rw [if_neg hc]
          simp
        generalize Compiler.literalRun (c :: rest) = lr at *
        obtain ⟨lit, r⟩ := lr
        simp only at t1 t2 t3 h hcl
        cases r with
        | nil => cases h
        | cons x r1 =>
          have hlen := congrArg List.length t1
          simp only [List.length_cons, List.length_append] at hlen
          simp only at h
          have hx := t3 x rfl
          rcases bind_eq_error.1 h with h | ⟨⟨a, r2, p2⟩, h1, h⟩
          · refine ⟨lit, [.lit lit], r1, reading_lit.2 ⟨[], by simp, hcl, t2, by simp, reading_nil.2 rfl⟩,
              by rw [t1, hx], ?_⟩
            rw [← h]
          dsimp only at h
          obtain ⟨p, g1, g2, g3, g4, rfl, g6⟩ := (forPattern_iff _ _ _ _ _ _).1 h1
          have hl := congrArg List.length g2
          have := text_length g1
          simp only [List.length_cons, List.length_append] at hl
          rcases bind_eq_error.1 h with h | ⟨as, h2, h⟩
          · obtain ⟨pre, ps, t, k1, k2, k3⟩ := ih (by omega) h
            refine ⟨lit ++ (p.text ++ pre), .lit lit :: p :: ps, t, reading_lit.2 ⟨p.text ++ pre, rfl, hcl, t2, ?_,
              (reading_cons g1).2 ⟨pre, rfl, g3, ?_, k1⟩⟩, by rw [t1, hx, g2, k2]; simp, ?_⟩
            · intro y hy
              cases hpt : p.text with
              | nil => rw [hpt] at this; simp at this
              | cons z zs =>
                rw [hpt] at g2 hy
                simp only [List.cons_append, List.cons.injEq] at g2
                simp only [List.cons_append, List.head?_cons, Option.some.injEq] at hy
                omega
            · rw [k2] at g4
              intro d hd1 hd2 hd3
              have := g4 d hd1 hd2 hd3
              cases pre with
              | nil => simp
              | cons x pre => simpa using this
            · rw [← k3]; congr 1; simp; omega
          · cases h

/-- When and why a format string is rejected. -/
theorem compile_error_iff {env : DateSyntax} {s : JStr} {e : Err} :
    Compiler.compile env s = .error e ↔
      ∃ pre ps, Reading env pre ps ∧
        ((∃ part after why, s = pre ++ js! "%" ++ part ++ after ∧ Fault env part after why ∧
            e = .syntaxErr why (pre ++ js! "%" ++ part).length) ∨
          (∃ name v d after, e = .printf (.exceedsMaximum name v) ∧ s = pre ++ d.text ++ after ∧
            TooLarge env d after name v)) := by
  constructor
  · intro h
    obtain ⟨pre, ps, t, h1, h2, h3⟩ := parseNext_error (by omega) h
    refine ⟨pre, ps, h1, ?_⟩
    rcases forPattern_error_iff.1 h3 with ⟨part, after, why, rfl, k1, k2⟩ | ⟨name, v, d, after, rfl, k1, k2⟩
    · refine .inl ⟨part, after, why, by simp [h2], k1, ?_⟩
      rw [k2]; simp [Nat.add_comm, Nat.add_left_comm]
    · exact .inr ⟨name, v, d, after, rfl, by rw [h2, k1]; simp, k2⟩
  · rintro ⟨pre, ps, h1, ⟨part, after, why, rfl, h2, rfl⟩ | ⟨name, v, d, after, rfl, rfl, h2⟩⟩
    · have := compile_error_after h1 (forPattern_fault h2 (pre.length + 1))
      rw [show (pre ++ js! "%" ++ part).length = pre.length + 1 + part.length by simp; omega]
      simpa using this
    · have := compile_error_after h1 (forPattern_tooLarge h2 (rest := (d.text ++ after).tail) (by simp [Directive.text]) _)
      simpa [Directive.text] using this

end FastPrintf
