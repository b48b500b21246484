/-
Lemmas about the parser: each parsing function accepts exactly what the grammar says, and every
failure it raises is located inside the text.
-/
import Mathlib.Tactic.SplitIfs
import Mathlib.Tactic.ByContra
import Mathlib.Tactic.Set
import Verif.Spec.Grammar

namespace FastPrintf
open Spec

/-- Where an error may point. -/
def Located (lo hi : Nat) (e : Err) : Prop := ∃ why i, e = .syntaxErr why i ∧ lo ≤ i ∧ i ≤ hi

theorem Located.mono {lo hi lo' hi' : Nat} {e : Err} (h : Located lo hi e) (h1 : lo' ≤ lo)
    (h2 : hi ≤ hi') : Located lo' hi' e := by
  obtain ⟨w, i, rfl, h3, h4⟩ := h
  exact ⟨w, i, rfl, by omega, by omega⟩

/-! ### Flags -/

theorem Flag.valueOf_flagChar (f : Flag) : Flag.valueOf (FormatContext.flagChar f) = some f := by
  cases f <;> decide

theorem Flag.valueOf_eq_some {c : JChar} {f : Flag} :
    Flag.valueOf c = some f ↔ c = FormatContext.flagChar f := by
  constructor
  · intro h
    unfold Flag.valueOf at h
    split_ifs at h with h1 h2 h3 h4 h5 <;> cases h <;> assumption
  · rintro rfl; exact Flag.valueOf_flagChar f

theorem Flag.valueOf_eq_none {c : JChar} : Flag.valueOf c = none ↔ c ∉ flagChars := by
  unfold Flag.valueOf flagChars
  split_ifs with h1 h2 h3 h4 h5 <;> simp_all

theorem flagChar_mem (f : Flag) : FormatContext.flagChar f ∈ flagChars := by cases f <;> decide

theorem mem_flagChars {c : JChar} : c ∈ flagChars ↔ ∃ f, c = FormatContext.flagChar f := by
  constructor
  · intro h
    cases hv : Flag.valueOf c with
    | none => exact absurd h (Flag.valueOf_eq_none.1 hv)
    | some f => exact ⟨f, Flag.valueOf_eq_some.1 hv⟩
  · rintro ⟨f, rfl⟩; exact flagChar_mem f

theorem flagChar_inj {f g : Flag} (h : FormatContext.flagChar f = FormatContext.flagChar g) :
    f = g := by
  have := Flag.valueOf_flagChar f
  rw [h, Flag.valueOf_flagChar] at this
  exact (Option.some.inj this).symm

theorem flagSet_contains (cs : JStr) (f : Flag) :
    (flagSet cs).contains f = cs.contains (FormatContext.flagChar f) := by
  cases f <;> rfl

theorem Flags.ext_contains {a b : Flags} (h : ∀ f, a.contains f = b.contains f) : a = b := by
  cases a; cases b
  have h1 := h .leftJustify
  have h2 := h .alternate
  have h3 := h .plus
  have h4 := h .leadingSpace
  have h5 := h .zeroPad
  simp only [Flags.contains] at h1 h2 h3 h4 h5
  subst h1 h2 h3 h4 h5
  rfl

theorem Flags.contains_add (s : Flags) (f g : Flag) :
    (s.add f).contains g = (s.contains g || decide (f = g)) := by
  cases f <;> cases g <;> simp [Flags.add, Flags.contains]

theorem flags_iff (rest : JStr) (pos : Nat) (fs fs' : Flags) (rest' : JStr) (pos' : Nat) :
    Compiler.flags rest pos fs = .ok (fs', rest', pos') ↔
      ∃ fl, rest = fl ++ rest' ∧ (∀ c ∈ fl, c ∈ flagChars) ∧ fl.Nodup ∧
        (∀ f, FormatContext.flagChar f ∈ fl → fs.contains f = false) ∧
        (∀ c, rest'.head? = some c → c ∉ flagChars) ∧
        (∀ f, fs'.contains f = (fs.contains f || fl.contains (FormatContext.flagChar f))) ∧
        pos' = pos + fl.length := by
  induction rest generalizing pos fs with
  | nil =>
    simp only [Compiler.flags, Except.ok.injEq, Prod.mk.injEq]
    constructor
    · rintro ⟨rfl, rfl, rfl⟩
      exact ⟨[], by simp⟩
    · rintro ⟨fl, h1, h2, h3, h4, h5, h6, h7⟩
      obtain ⟨rfl, rfl⟩ := List.append_eq_nil_iff.1 h1.symm
      simp only [List.contains_nil, Bool.or_false] at h6
      exact ⟨(Flags.ext_contains h6).symm, rfl, by simpa using h7.symm⟩
  | cons c rest ih =>
    unfold Compiler.flags
    cases hv : Flag.valueOf c with
    | none =>
      simp only [Except.ok.injEq, Prod.mk.injEq]
      have hn := Flag.valueOf_eq_none.1 hv
      constructor
      · rintro ⟨rfl, rfl, rfl⟩
        exact ⟨[], by simpa using hn⟩
      · rintro ⟨fl, h1, h2, h3, h4, h5, h6, h7⟩
        cases fl with
        | nil =>
          simp only [List.contains_nil, Bool.or_false] at h6
          exact ⟨(Flags.ext_contains h6).symm, h1, by simpa using h7.symm⟩
        | cons d fl =>
          simp only [List.cons_append, List.cons.injEq] at h1
          exact absurd (h2 c (by simp [h1.1])) hn
    | some f =>
      have hc := Flag.valueOf_eq_some.1 hv
      simp only
      by_cases hd : fs.contains f = true
      · rw [if_pos hd]
        constructor
        · intro h; cases h
        · rintro ⟨fl, h1, h2, h3, h4, h5, h6, h7⟩
          cases fl with
          | nil =>
            simp only [List.nil_append] at h1
            exact absurd (mem_flagChars.2 ⟨f, hc⟩) (h5 c (by rw [← h1]; rfl))
          | cons d fl =>
            simp only [List.cons_append, List.cons.injEq] at h1
            have := h4 f (by simp [← h1.1, hc])
            rw [hd] at this; cases this
      · rw [if_neg hd, ih]
        simp only [Bool.not_eq_true] at hd
        constructor
        · rintro ⟨fl, h1, h2, h3, h4, h5, h6, h7⟩
          refine ⟨c :: fl, by simp [h1], ?_, ?_, ?_, h5, ?_, by simp; omega⟩
          · intro x hx
            rcases List.mem_cons.1 hx with rfl | hx
            · exact mem_flagChars.2 ⟨f, hc⟩
            · exact h2 x hx
          · rw [List.nodup_cons]
            refine ⟨?_, h3⟩
            intro hm
            have := h4 f (hc ▸ hm)
            simp [Flags.contains_add] at this
          · intro g hg
            rcases List.mem_cons.1 hg with hg | hg
            · rw [hc] at hg
              rw [flagChar_inj hg]; exact hd
            · have := h4 g hg
              simp only [Flags.contains_add, Bool.or_eq_false_iff] at this
              exact this.1
          · intro g
            rw [h6 g, Flags.contains_add, List.contains_cons, Bool.or_assoc]
            congr 2
            rw [hc]
            by_cases hfg : f = g
            · simp [hfg]
            · have : FormatContext.flagChar g ≠ FormatContext.flagChar f :=
                fun h => hfg (flagChar_inj h).symm
              simp [hfg, this]
        · rintro ⟨fl, h1, h2, h3, h4, h5, h6, h7⟩
          cases fl with
          | nil =>
            simp only [List.nil_append] at h1
            exact absurd (mem_flagChars.2 ⟨f, hc⟩) (h5 c (by rw [← h1]; rfl))
          | cons d fl =>
            simp only [List.cons_append, List.cons.injEq] at h1
            obtain ⟨rfl, rfl⟩ := h1
            rw [List.nodup_cons] at h3
            refine ⟨fl, rfl, fun x hx => h2 x (List.mem_cons_of_mem _ hx), h3.2, ?_, h5, ?_, ?_⟩
            · intro g hg
              rw [Flags.contains_add, h4 g (List.mem_cons_of_mem _ hg)]
              simp only [Bool.false_or, decide_eq_false_iff_not]
              rintro rfl
              exact h3.1 (hc ▸ hg)
            · intro g
              rw [h6 g, Flags.contains_add, List.contains_cons, Bool.or_assoc]
              congr 2
              rw [hc]
              by_cases hfg : f = g
              · simp [hfg]
              · have : FormatContext.flagChar g ≠ FormatContext.flagChar f :=
                  fun h => hfg (flagChar_inj h).symm
                simp [hfg, this]
            · simp at h7; omega

theorem flags_err {rest : JStr} {pos : Nat} {fs : Flags} {e : Err}
    (h : Compiler.flags rest pos fs = .error e) : Located pos (pos + rest.length) e := by
  induction rest generalizing pos fs with
  | nil => cases h
  | cons c rest ih =>
    unfold Compiler.flags at h
    cases hv : Flag.valueOf c with
    | none => rw [hv] at h; cases h
    | some f =>
      rw [hv] at h
      simp only at h
      split_ifs at h with hd
      · cases h
        exact ⟨_, _, rfl, by omega, by simp⟩
      · exact (ih h).mono (by omega) (by simp; omega)

/-- A repeated flag is rejected at its own position. -/
theorem flags_duplicate (fl : JStr) (c : JChar) (rest : JStr) (pos : Nat) (fs : Flags)
    (h1 : ∀ x ∈ fl, x ∈ flagChars) (h2 : fl.Nodup)
    (h3 : ∀ f, FormatContext.flagChar f ∈ fl → fs.contains f = false)
    (hc : c ∈ fl ∨ ∃ f, c = FormatContext.flagChar f ∧ fs.contains f = true) :
    Compiler.flags (fl ++ c :: rest) pos fs = .error (.syntaxErr (.duplicateFlag c) (pos + fl.length)) := by
  induction fl generalizing pos fs with
  | nil =>
    obtain ⟨f, rfl, hf⟩ : ∃ f, c = FormatContext.flagChar f ∧ fs.contains f = true := by
      rcases hc with hc | hc
      · simp at hc
      · exact hc
    simp [Compiler.flags, Flag.valueOf_flagChar, hf]
  | cons d fl ih =>
    obtain ⟨f, rfl⟩ := mem_flagChars.1 (h1 d (by simp))
    rw [List.nodup_cons] at h2
    have hf := h3 f (by simp)
    simp only [List.cons_append, Compiler.flags, Flag.valueOf_flagChar, hf, Bool.false_eq_true, if_false]
    rw [ih (pos + 1) (fs.add f) (fun x hx => h1 x (List.mem_cons_of_mem _ hx)) h2.2]
    · simp; omega
    · intro g hg
      rw [Flags.contains_add, h3 g (List.mem_cons_of_mem _ hg)]
      simp only [Bool.false_or, decide_eq_false_iff_not]
      rintro rfl
      exact h2.1 hg
    · rcases hc with hc | ⟨g, rfl, hg⟩
      · rcases List.mem_cons.1 hc with rfl | hc
        · right; exact ⟨f, rfl, by simp [Flags.contains_add]⟩
        · left; exact hc
      · right; exact ⟨g, rfl, by simp [Flags.contains_add, hg]⟩

/-! ### Numbers -/

theorem isNotDigit_iff {c : JChar} : Compiler.takeDigits [] = ([], []) ∧
    (isNotDigit c = true ↔ ¬ IsDigit c) := by
  refine ⟨rfl, ?_⟩
  unfold isNotDigit isDigit IsDigit
  simp only [Bool.not_eq_true', Bool.and_eq_false_iff, decide_eq_false_iff_not, not_and_or, ge_iff_le]

theorem takeDigits_spec (s : JStr) :
    s = (Compiler.takeDigits s).1 ++ (Compiler.takeDigits s).2 ∧
    (∀ c ∈ (Compiler.takeDigits s).1, IsDigit c) ∧
    (∀ c, (Compiler.takeDigits s).2.head? = some c → ¬ IsDigit c) := by
  induction s with
  | nil => simp [Compiler.takeDigits]
  | cons c s ih =>
    unfold Compiler.takeDigits
    split_ifs with h
    · have := isNotDigit_iff.2.1 h
      simpa using this
    · have hd : IsDigit c := by
        by_contra hn; exact h (isNotDigit_iff.2.2 hn)
      refine ⟨?_, ?_, ih.2.2⟩
      · simp only [List.cons_append, ← ih.1]
      · intro x hx
        rcases List.mem_cons.1 hx with rfl | hx
        · exact hd
        · exact ih.2.1 x hx

theorem takeDigits_append (ds rest : JStr) (h : ∀ c ∈ ds, IsDigit c)
    (hr : ∀ c, rest.head? = some c → ¬ IsDigit c) :
    Compiler.takeDigits (ds ++ rest) = (ds, rest) := by
  induction ds with
  | nil =>
    cases rest with
    | nil => rfl
    | cons c rest =>
      have := isNotDigit_iff.2.2 (hr c rfl)
      simp [Compiler.takeDigits, this]
  | cons d ds ih =>
    have hd : ¬ isNotDigit d = true := fun hn => isNotDigit_iff.2.1 hn (h d (by simp))
    simp only [List.cons_append, Compiler.takeDigits, if_neg hd,
      ih (fun c hc => h c (List.mem_cons_of_mem _ hc))]

theorem digitsValue_eq (ds : JStr) : Compiler.digitsValue ds = decimalValue ds := by
  have : ∀ acc, ds.foldl (fun n c => n * 10 + (c - 48)) acc = acc * 10 ^ ds.length + decimalValue ds := by
    induction ds with
    | nil => simp [decimalValue]
    | cons d ds ih =>
      intro acc
      simp only [List.foldl_cons, ih, decimalValue, List.length_cons, Nat.pow_succ]
      rw [Nat.add_mul, Nat.mul_assoc, Nat.mul_comm (10 ^ ds.length), Nat.add_assoc]
  unfold Compiler.digitsValue
  simpa using this 0

theorem checkValue_ok {name : NumName} {v : Int} :
    FormatContext.checkValue name v = .ok () ↔ (v = UNSET ∨ v = PRECEDING ∨ (0 ≤ v ∧ v ≤ 65536)) := by
  have e1 : UNSET = -1 := rfl
  have e2 : PRECEDING = -2147483648 := rfl
  have e3 : MAX_WIDTH_OR_PRECISION = 65536 := rfl
  unfold FormatContext.checkValue
  by_cases h1 : v < 0 ∧ v ≠ UNSET ∧ v ≠ PRECEDING
  · rw [if_pos h1]; simp only [reduceCtorEq, false_iff]; omega
  · rw [if_neg h1]
    by_cases h2 : v > MAX_WIDTH_OR_PRECISION
    · rw [if_pos h2]; simp only [reduceCtorEq, false_iff]; omega
    · rw [if_neg h2]; simp only [true_iff]; omega

theorem checkValue_err {name : NumName} {v : Int} (hv : -1 ≤ v ∨ v = PRECEDING) {e : Err}
    (h : FormatContext.checkValue name v = .error e) : e = .printf (.exceedsMaximum name v) ∧ 65536 < v := by
  have e1 : UNSET = -1 := rfl
  have e2 : PRECEDING = -2147483648 := rfl
  have e3 : MAX_WIDTH_OR_PRECISION = 65536 := rfl
  unfold FormatContext.checkValue at h
  by_cases h1 : v < 0 ∧ v ≠ UNSET ∧ v ≠ PRECEDING
  · omega
  · rw [if_neg h1] at h
    by_cases h2 : v > MAX_WIDTH_OR_PRECISION
    · rw [if_pos h2] at h; cases h; exact ⟨rfl, by omega⟩
    · rw [if_neg h2] at h; cases h

/-- What `width()` and `precision()` return when they return. -/
def NumWritten : Num → Prop
  | .digits ds => (∀ c ∈ ds, IsDigit c) ∧ (decimalValue ds : Int) ≤ intMax
  | _ => True

theorem width_iff (rest : JStr) (pos : Nat) (v : Int) (rest' : JStr) (pos' : Nat)
    (hf : rest.head? ≠ some 48) :
    Compiler.width rest pos = .ok (v, rest', pos') ↔
      ∃ n : Num, rest = n.text ++ rest' ∧ NumWritten n ∧
        (∀ ds, n = .digits ds → ds ≠ [] ∧ ds.head? ≠ some 48) ∧
        (n = .absent → rest' ≠ [] ∧ rest'.head? ≠ some 42) ∧
        (n ≠ .star → ∀ c, rest'.head? = some c → ¬ IsDigit c) ∧
        v = n.value ∧ pos' = pos + n.text.length := by
  cases rest with
  | nil =>
    simp only [Compiler.width, reduceCtorEq, false_iff, not_exists]
    rintro n ⟨h1, h2, h3, h4, h5, h6, h7⟩
    obtain ⟨h8, rfl⟩ := List.append_eq_nil_iff.1 h1.symm
    cases n with
    | absent => exact (h4 rfl).1 rfl
    | star => simp [Num.text] at h8
    | digits ds => simp only [Num.text] at h8; exact (h3 ds rfl).1 h8
  | cons c rest =>
    unfold Compiler.width
    simp only
    by_cases hs : c = 42
    · subst hs
      simp only [if_true, Except.ok.injEq, Prod.mk.injEq]
      constructor
      · rintro ⟨rfl, rfl, rfl⟩
        exact ⟨.star, by simp [Num.text, NumWritten, Num.value]⟩
      · rintro ⟨n, h1, h2, h3, h4, h5, h6, h7⟩
        cases n with
        | absent =>
          simp only [Num.text, List.nil_append] at h1
          exact absurd (by rw [← h1]; rfl) (h4 rfl).2
        | star =>
          simp only [Num.text, List.cons_append, List.nil_append, List.cons.injEq, true_and] at h1
          subst h1 h6 h7
          exact ⟨rfl, rfl, rfl⟩
        | digits ds =>
          cases ds with
          | nil => exact absurd rfl (h3 [] rfl).1
          | cons d ds =>
            simp only [Num.text, List.cons_append, List.cons.injEq] at h1
            have := h2.1 d (by simp)
            rw [← h1.1] at this
            exact absurd this (by unfold IsDigit; omega)
    · rw [if_neg hs]
      obtain ⟨t1, t2, t3⟩ := takeDigits_spec (c :: rest)
      generalize htd : Compiler.takeDigits (c :: rest) = td at *
      obtain ⟨w, r⟩ := td
      simp only at t1 t2 t3 ⊢
      by_cases hw : w = []
      · subst hw
        simp only [if_true, Except.ok.injEq, Prod.mk.injEq]
        simp only [List.nil_append] at t1
        subst t1
        constructor
        · rintro ⟨rfl, rfl, rfl⟩
          refine ⟨.absent, ?_⟩
          simp only [Num.text, NumWritten, Num.value]
          simpa [hs] using t3 c rfl
        · rintro ⟨n, h1, h2, h3, h4, h5, h6, h7⟩
          cases n with
          | absent =>
            simp only [Num.text, List.nil_append] at h1
            subst h1 h6 h7
            exact ⟨rfl, rfl, rfl⟩
          | star =>
            simp only [Num.text, List.cons_append, List.nil_append, List.cons.injEq] at h1
            exact absurd h1.1 hs
          | digits ds =>
            cases ds with
            | nil => exact absurd rfl (h3 [] rfl).1
            | cons d ds =>
              simp only [Num.text, List.cons_append, List.cons.injEq] at h1
              exact absurd (h1.1 ▸ h2.1 d (by simp)) (t3 c rfl)
      · rw [if_neg hw]
        have key : ∀ n : Num, c :: rest = n.text ++ rest' → NumWritten n →
            (n = .absent → rest' ≠ [] ∧ rest'.head? ≠ some 42) →
            (n ≠ .star → ∀ c, rest'.head? = some c → ¬ IsDigit c) → n = .digits w ∧ rest' = r := by
          intro n h1 h2 h4 h5
          cases n with
          | absent =>
            simp only [Num.text, List.nil_append] at h1
            have := h5 (by simp) c (by rw [← h1]; rfl)
            cases w with
            | nil => exact absurd rfl hw
            | cons d w =>
              simp only [List.cons_append, List.cons.injEq] at t1
              exact absurd (t1.1 ▸ t2 d (by simp)) this
          | star =>
            simp only [Num.text, List.cons_append, List.nil_append, List.cons.injEq] at h1
            exact absurd h1.1 hs
          | digits ds =>
            simp only [Num.text] at h1
            have := takeDigits_append ds rest' h2.1 (h5 (by simp))
            rw [← h1, htd] at this
            cases this
            exact ⟨rfl, rfl⟩
        have hhead : w.head? ≠ some 48 := by
          cases w with
          | nil => exact absurd rfl hw
          | cons d w =>
            simp only [List.cons_append, List.cons.injEq] at t1
            simp only [List.head?_cons, ne_eq, Option.some.injEq] at hf ⊢
            rw [← t1.1]; exact hf
        unfold Compiler.parseInt
        rw [digitsValue_eq]
        by_cases hmax : (decimalValue w : Int) ≤ intMax
        · rw [if_pos hmax]
          simp only [Except.ok.injEq, Prod.mk.injEq]
          constructor
          · rintro ⟨rfl, rfl, rfl⟩
            refine ⟨.digits w, t1, ⟨t2, hmax⟩, ?_, by simp, fun _ => t3, rfl, rfl⟩
            intro ds hds; cases hds; exact ⟨hw, hhead⟩
          · rintro ⟨n, h1, h2, h3, h4, h5, h6, h7⟩
            obtain ⟨rfl, rfl⟩ := key n h1 h2 h4 h5
            exact ⟨h6.symm, rfl, h7.symm⟩
        · rw [if_neg hmax]
          simp only [reduceCtorEq, false_iff, not_exists]
          rintro n ⟨h1, h2, h3, h4, h5, h6, h7⟩
          obtain ⟨rfl, rfl⟩ := key n h1 h2 h4 h5
          exact hmax h2.2

theorem width_err {rest : JStr} {pos : Nat} {e : Err}
    (h : Compiler.width rest pos = .error e) : Located pos (pos + rest.length) e := by
  cases rest with
  | nil => cases h; exact ⟨_, _, rfl, by omega, by simp⟩
  | cons c rest =>
    unfold Compiler.width at h
    simp only at h
    split_ifs at h
    split at h
    · cases h
    · cases h; exact ⟨_, _, rfl, by omega, by omega⟩

theorem precision_iff (rest : JStr) (pos : Nat) (v : Int) (rest' : JStr) (pos' : Nat) :
    Compiler.precision rest pos = .ok (v, rest', pos') ↔
      ∃ n : Num, rest = precText n ++ rest' ∧ NumWritten n ∧
        (n = .absent → rest'.head? ≠ some 46) ∧
        (n = .digits [] → rest' ≠ [] ∧ rest'.head? ≠ some 42) ∧
        (∀ ds, n = .digits ds → ∀ c, rest'.head? = some c → ¬ IsDigit c) ∧
        v = n.value ∧ pos' = pos + (precText n).length := by
  cases rest with
  | nil =>
    simp only [Compiler.precision, Except.ok.injEq, Prod.mk.injEq]
    constructor
    · rintro ⟨rfl, rfl, rfl⟩
      exact ⟨.absent, by simp [precText, NumWritten, Num.value]⟩
    · rintro ⟨n, h1, h2, h3, h4, h5, h6, h7⟩
      obtain ⟨h8, rfl⟩ := List.append_eq_nil_iff.1 h1.symm
      cases n with
      | absent => exact ⟨h6.symm, rfl, by simpa [precText] using h7.symm⟩
      | star => simp [precText] at h8
      | digits ds => simp [precText] at h8
  | cons c rest =>
    unfold Compiler.precision
    simp only
    by_cases hdot : c = 46
    · subst hdot
      simp only [ne_eq, not_true_eq_false, if_false]
      cases rest with
      | nil =>
        simp only [reduceCtorEq, false_iff, not_exists]
        rintro n ⟨h1, h2, h3, h4, h5, h6, h7⟩
        cases n with
        | absent =>
          simp only [precText, List.nil_append] at h1
          exact h3 rfl (by rw [← h1]; rfl)
        | star => simp [precText, Num.text] at h1
        | digits ds =>
          simp only [precText, Num.text, List.cons_append, List.nil_append, List.cons.injEq,
            true_and] at h1
          obtain ⟨rfl, rfl⟩ := List.append_eq_nil_iff.1 h1.symm
          exact (h4 rfl).1 rfl
      | cons d rest =>
        simp only
        by_cases hs : d = 42
        · subst hs
          simp only [if_true, Except.ok.injEq, Prod.mk.injEq]
          constructor
          · rintro ⟨rfl, rfl, rfl⟩
            exact ⟨.star, by simp [precText, Num.text, NumWritten, Num.value]⟩
          · rintro ⟨n, h1, h2, h3, h4, h5, h6, h7⟩
            cases n with
            | absent =>
              simp only [precText, List.nil_append] at h1
              exact absurd (by rw [← h1]; rfl) (h3 rfl)
            | star =>
              simp only [precText, Num.text, List.cons_append, List.nil_append, List.cons.injEq,
                true_and] at h1
              subst h1 h6 h7
              exact ⟨rfl, rfl, rfl⟩
            | digits ds =>
              simp only [precText, Num.text, List.cons_append, List.nil_append, List.cons.injEq,
                true_and] at h1
              cases ds with
              | nil =>
                simp only [List.nil_append] at h1
                exact absurd (by rw [← h1]; rfl) (h4 rfl).2
              | cons x ds =>
                simp only [List.cons_append, List.cons.injEq] at h1
                have := h2.1 x (by simp)
                rw [← h1.1] at this
                exact absurd this (by unfold IsDigit; omega)
        · rw [if_neg hs]
          obtain ⟨t1, t2, t3⟩ := takeDigits_spec (d :: rest)
          generalize htd : Compiler.takeDigits (d :: rest) = td at *
          obtain ⟨w, r⟩ := td
          simp only at t1 t2 t3 ⊢
          have key : ∀ n : Num, 46 :: d :: rest = precText n ++ rest' → NumWritten n →
              (n = .absent → rest'.head? ≠ some 46) →
              (∀ ds, n = .digits ds → ∀ c, rest'.head? = some c → ¬ IsDigit c) →
              n = .digits w ∧ rest' = r := by
            intro n h1 h2 h3 h5
            cases n with
            | absent =>
              simp only [precText, List.nil_append] at h1
              exact absurd (by rw [← h1]; rfl) (h3 rfl)
            | star =>
              simp only [precText, Num.text, List.cons_append, List.nil_append,
                List.cons.injEq, true_and] at h1
              exact absurd h1.1 hs
            | digits ds =>
              simp only [precText, Num.text, List.cons_append, List.nil_append,
                List.cons.injEq, true_and] at h1
              have := takeDigits_append ds rest' h2.1 (h5 ds rfl)
              rw [← h1, htd] at this
              cases this
              exact ⟨rfl, rfl⟩
          by_cases hw : w = []
          · subst hw
            simp only [if_true, Except.ok.injEq, Prod.mk.injEq]
            simp only [List.nil_append] at t1
            constructor
            · rintro ⟨rfl, rfl, rfl⟩
              refine ⟨.digits [], ?_⟩
              simp only [precText, Num.text, NumWritten, Num.value]
              subst t1
              simpa [hs, decimalValue, intMax] using t3 d rfl
            · rintro ⟨n, h1, h2, h3, h4, h5, h6, h7⟩
              obtain ⟨rfl, rfl⟩ := key n h1 h2 h3 h5
              subst h6 h7
              exact ⟨rfl, rfl, rfl⟩
          · rw [if_neg hw]
            unfold Compiler.parseInt
            rw [digitsValue_eq]
            by_cases hmax : (decimalValue w : Int) ≤ intMax
            · rw [if_pos hmax]
              simp only [Except.ok.injEq, Prod.mk.injEq]
              constructor
              · rintro ⟨rfl, rfl, rfl⟩
                refine ⟨.digits w, ?_, ⟨t2, hmax⟩, by simp, ?_, ?_, rfl, ?_⟩
                · rw [t1]; rfl
                · intro hn; cases hn; exact absurd rfl hw
                · intro ds hds; exact t3
                · simp [precText, Num.text]; omega
              · rintro ⟨n, h1, h2, h3, h4, h5, h6, h7⟩
                obtain ⟨rfl, rfl⟩ := key n h1 h2 h3 h5
                subst h6 h7
                refine ⟨rfl, rfl, ?_⟩
                simp [precText, Num.text]; omega
            · rw [if_neg hmax]
              simp only [reduceCtorEq, false_iff, not_exists]
              rintro n ⟨h1, h2, h3, h4, h5, h6, h7⟩
              obtain ⟨rfl, rfl⟩ := key n h1 h2 h3 h5
              exact hmax h2.2
    · rw [if_pos hdot]
      simp only [Except.ok.injEq, Prod.mk.injEq]
      constructor
      · rintro ⟨rfl, rfl, rfl⟩
        exact ⟨.absent, by simp [precText, NumWritten, Num.value, hdot]⟩
      · rintro ⟨n, h1, h2, h3, h4, h5, h6, h7⟩
        cases n with
        | absent =>
          simp only [precText, List.nil_append] at h1
          subst h1 h6 h7
          exact ⟨rfl, rfl, rfl⟩
        | star =>
          simp only [precText, Num.text, List.cons_append, List.cons.injEq] at h1
          exact absurd h1.1 hdot
        | digits ds =>
          simp only [precText, Num.text, List.cons_append, List.cons.injEq] at h1
          exact absurd h1.1 hdot

theorem precision_err {rest : JStr} {pos : Nat} {e : Err}
    (h : Compiler.precision rest pos = .error e) : Located pos (pos + rest.length) e := by
  cases rest with
  | nil => cases h
  | cons c rest =>
    unfold Compiler.precision at h
    simp only at h
    split_ifs at h
    cases rest with
    | nil => cases h; exact ⟨_, _, rfl, by omega, by simp⟩
    | cons d rest =>
      simp only at h
      split_ifs at h
      split at h
      · cases h
      · cases h; exact ⟨_, _, rfl, by omega, by simp⟩

/-! ### Specifier -/

theorem specifier_valueOf_some {c : JChar} {sp : Specifier} :
    Specifier.valueOf c = some sp ↔ c ∈ convChars ∧ sp = convOf c := by
  by_cases h : c < 128
  · have key : ∀ c : Fin 128, ∀ sp : Specifier,
        (Specifier.valueOf c = some sp ↔ (c : Nat) ∈ convChars ∧ sp = convOf c) := by
      intro c sp
      have := (by decide +kernel : ∀ c : Fin 128,
        (Specifier.valueOf c = none ∧ (c : Nat) ∉ convChars) ∨
        (Specifier.valueOf c = some (convOf c) ∧ (c : Nat) ∈ convChars)) c
      rcases this with ⟨h1, h2⟩ | ⟨h1, h2⟩
      · simp [h1, h2]
      · simp [h1, h2, eq_comm]
    exact key ⟨c, h⟩ sp
  · have h1 : Specifier.valueOf c = none := by
      unfold Specifier.valueOf
      rw [if_neg (by omega), List.find?_eq_none]
      intro sp' _
      have : sp'.char < 128 := by cases sp' <;> decide
      simp only [beq_iff_eq]; omega
    have h2 : c ∉ convChars := by
      have := (by decide : ∀ x ∈ convChars, x < 128)
      intro hc; exact h (this c hc)
    simp [h1, h2]

theorem specifier_iff (rest : JStr) (pos : Nat) (sp : Specifier) (rest' : JStr) (pos' : Nat) :
    Compiler.specifier rest pos = .ok (sp, rest', pos') ↔
      ∃ c, rest = c :: rest' ∧ c ∈ convChars ∧ sp = convOf c ∧ pos' = pos + 1 := by
  cases rest with
  | nil => simp [Compiler.specifier]
  | cons c rest =>
    unfold Compiler.specifier
    simp only
    cases hv : Specifier.valueOf c with
    | none =>
      simp only [reduceCtorEq, List.cons.injEq, false_iff, not_exists]
      rintro d ⟨⟨rfl, rfl⟩, h2, h3, h4⟩
      have := specifier_valueOf_some.2 ⟨h2, rfl⟩
      rw [hv] at this; cases this
    | some sp' =>
      obtain ⟨h1, h2⟩ := specifier_valueOf_some.1 hv
      simp only [Except.ok.injEq, Prod.mk.injEq, List.cons.injEq]
      constructor
      · rintro ⟨rfl, rfl, rfl⟩
        exact ⟨c, ⟨rfl, rfl⟩, h1, h2, rfl⟩
      · rintro ⟨d, ⟨rfl, rfl⟩, _, rfl, rfl⟩
        exact ⟨h2, rfl, rfl⟩

theorem specifier_err {rest : JStr} {pos : Nat} {e : Err}
    (h : Compiler.specifier rest pos = .error e) : Located pos (pos + rest.length) e := by
  cases rest with
  | nil => cases h; exact ⟨_, _, rfl, by omega, by simp⟩
  | cons c rest =>
    unfold Compiler.specifier at h
    simp only at h
    split at h
    · cases h; exact ⟨_, _, rfl, by omega, by omega⟩
    · cases h

theorem isDateTime_iff {c : JChar} (hc : c ∈ convChars) :
    (convOf c).isDateTime = true ↔ IsDateConv c := by
  have := (by decide +kernel : ∀ c ∈ convChars, (convOf c).isDateTime = true ↔ (c = 116 ∨ c = 84)) c hc
  exact this

/-! ### Date patterns -/

/-- `'}'` at offset `n` is the first one preceded by a number of quotes of the given parity. -/
def FirstClose (q : Nat) (s : JStr) (n : Nat) : Prop :=
  ∃ pre post, s = pre ++ 125 :: post ∧ pre.length = n ∧ (q + pre.count 39) % 2 = 0 ∧
    ∀ a b, pre = a ++ 125 :: b → (q + a.count 39) % 2 = 1

theorem firstClose_nil (q n : Nat) : ¬ FirstClose q [] n := by
  rintro ⟨pre, post, h, _⟩; cases pre <;> simp at h

theorem count39_cons (c : JChar) (s : JStr) :
    (c :: s).count 39 = s.count 39 + if c = 39 then 1 else 0 := by
  rw [List.count_cons]; simp only [beq_iff_eq]

theorem firstClose_cons (q : Nat) (c : JChar) (s : JStr) (n : Nat) :
    FirstClose q (c :: s) n ↔
      (c = 125 ∧ q % 2 = 0 ∧ n = 0) ∨
      (¬ (c = 125 ∧ q % 2 = 0) ∧
        ∃ m, n = m + 1 ∧ FirstClose (q + if c = 39 then 1 else 0) s m) := by
  have hcount := count39_cons c
  generalize (if c = 39 then 1 else 0) = k at *
  by_cases h : c = 125 ∧ q % 2 = 0
  · obtain ⟨rfl, hq⟩ := h
    simp only [hq, true_and, not_true_eq_false, false_and, or_false]
    constructor
    · rintro ⟨pre, post, h1, h2, h3, h4⟩
      cases pre with
      | nil => simpa using h2.symm
      | cons d pre =>
        simp only [List.cons_append, List.cons.injEq] at h1
        have := h4 [] pre (by simp [h1.1])
        simp at this; omega
    · rintro rfl
      exact ⟨[], s, rfl, rfl, by simpa using hq, by intro a b hab; cases a <;> simp at hab⟩
  · constructor
    · rintro ⟨pre, post, h1, h2, h3, h4⟩
      right
      refine ⟨h, ?_⟩
      cases pre with
      | nil =>
        simp only [List.nil_append, List.cons.injEq] at h1
        simp at h3
        exact absurd ⟨h1.1, h3⟩ h
      | cons d pre =>
        simp only [List.cons_append, List.cons.injEq] at h1
        obtain ⟨rfl, rfl⟩ := h1
        refine ⟨pre.length, by simpa using h2.symm, pre, post, rfl, rfl, ?_, ?_⟩
        · rw [hcount] at h3; omega
        · intro a b hab
          have := h4 (c :: a) b (by simp [hab])
          rw [hcount] at this; omega
    · rintro (⟨h1, h2, _⟩ | ⟨_, m, rfl, pre, post, rfl, rfl, h3, h4⟩)
      · exact absurd ⟨h1, h2⟩ h
      refine ⟨c :: pre, post, rfl, rfl, ?_, ?_⟩
      · rw [hcount]; omega
      · intro a b hab
        cases a with
        | nil =>
          simp only [List.nil_append, List.cons.injEq] at hab
          have : ¬ q % 2 = 0 := fun hq => h ⟨hab.1, hq⟩
          simp; omega
        | cons d a =>
          simp only [List.cons_append, List.cons.injEq] at hab
          obtain ⟨rfl, rfl⟩ := hab
          have := h4 a b rfl
          rw [hcount]; omega

theorem firstClose_parity {q q' : Nat} (h : q % 2 = q' % 2) (s : JStr) (n : Nat) :
    FirstClose q s n ↔ FirstClose q' s n := by
  unfold FirstClose
  constructor <;> rintro ⟨pre, post, h1, h2, h3, h4⟩ <;>
    exact ⟨pre, post, h1, h2, by omega, fun a b hab => by have := h4 a b hab; omega⟩

/-- A quote moves the scan to the other parity. -/
theorem firstClose_quote (q : Nat) (s : JStr) (n : Nat) :
    FirstClose q (39 :: s) n ↔ ∃ m, n = m + 1 ∧ FirstClose (q + 1) s m := by
  rw [firstClose_cons]; simp

theorem scanBrace_iff (s : JStr) (inQuote : Bool) (k n : Nat) :
    Compiler.scanBrace s inQuote k = some n ↔
      ∃ m, n = k + m ∧ FirstClose (if inQuote then 1 else 0) s m := by
  induction hs : s.length using Nat.strong_induction_on generalizing s inQuote k n with
  | _ len ih =>
    cases s with
    | nil =>
      simp only [Compiler.scanBrace, reduceCtorEq, false_iff, not_exists]
      rintro m ⟨_, h⟩; exact firstClose_nil _ _ h
    | cons c rest =>
      unfold Compiler.scanBrace
      by_cases h39 : c = 39
      · subst h39
        simp only [if_true, firstClose_quote]
        match rest with
        | [] =>
          simp only [Compiler.scanBrace, reduceCtorEq, false_iff, not_exists]
          rintro m ⟨_, m1, _, h⟩
          exact firstClose_nil _ _ h
        | d :: rest =>
          simp only
          by_cases hd : d = 39
          · subst hd
            simp only [if_true, firstClose_quote]
            rw [ih rest.length (by simp at hs; omega) rest inQuote (k + 2) n rfl]
            constructor
            · rintro ⟨m, rfl, h⟩
              exact ⟨m + 2, by omega, m + 1, rfl, m, rfl, (firstClose_parity (by omega) _ _).1 h⟩
            · rintro ⟨m, rfl, m1, rfl, m2, rfl, h⟩
              exact ⟨m2, by omega, (firstClose_parity (by omega) _ _).1 h⟩
          · rw [if_neg hd,
              ih (d :: rest).length (by simp at hs ⊢; omega) (d :: rest) (!inQuote) (k + 1) n rfl]
            have hpar : (if (!inQuote) = true then 1 else 0) % 2 =
                ((if inQuote = true then 1 else 0) + 1) % 2 := by
              cases inQuote <;> simp
            constructor
            · rintro ⟨m, rfl, h⟩
              exact ⟨m + 1, by omega, m, rfl, (firstClose_parity hpar _ _).1 h⟩
            · rintro ⟨m, rfl, m1, rfl, h⟩
              exact ⟨m1, by omega, (firstClose_parity hpar _ _).2 h⟩
      · rw [if_neg h39]
        simp only [firstClose_cons (if inQuote = true then 1 else 0) c, h39, if_false, Nat.add_zero]
        by_cases hc : c = 125 ∧ inQuote = false
        · obtain ⟨rfl, rfl⟩ := hc
          simp [eq_comm]
        · have h1 : (decide (c = 125) && !inQuote) = false := by
            cases inQuote <;> simp_all
          have h2 : ¬ (c = 125 ∧ (if inQuote = true then 1 else 0) % 2 = 0) := by
            cases inQuote <;> simp_all
          rw [h1]
          simp only [Bool.false_eq_true, if_false]
          rw [ih rest.length (by simp at hs ⊢; omega) rest inQuote (k + 1) n rfl]
          constructor
          · rintro ⟨m, rfl, h⟩; exact ⟨m + 1, by omega, Or.inr ⟨h2, m, rfl, h⟩⟩
          · rintro ⟨m, rfl, (⟨g1, g2, _⟩ | ⟨_, m1, rfl, h⟩)⟩
            · exact absurd ⟨g1, g2⟩ h2
            · exact ⟨m1, by omega, h⟩

theorem scanBrace_none {s : JStr} (h : Compiler.scanBrace s false 0 = none) (n : Nat) :
    ¬ FirstClose 0 s n := by
  intro hc
  have := (scanBrace_iff s false 0 n).2 ⟨n, by omega, by simpa using hc⟩
  rw [h] at this; cases this

/-- The pattern of a date directive, in terms of `FirstClose`. -/
theorem firstClose_dateOk (p rest : JStr) :
    FirstClose 0 (p ++ 125 :: rest) p.length ↔
      (p.count 39 % 2 = 0 ∧ ∀ pre post, p = pre ++ 125 :: post → pre.count 39 % 2 = 1) := by
  constructor
  · rintro ⟨pre, post, h1, h2, h3, h4⟩
    obtain ⟨rfl, _⟩ := List.append_inj h1 h2.symm
    exact ⟨by simpa using h3, fun a b hab => by simpa using h4 a b hab⟩
  · rintro ⟨h1, h2⟩
    exact ⟨p, rest, rfl, rfl, by simpa using h1, fun a b hab => by simpa using h2 a b hab⟩

theorem dateTimeFormatter_iff (env : DateSyntax) (rest : JStr) (pos : Nat) (v : Option JStr)
    (rest' : JStr) (pos' : Nat) :
    Compiler.dateTimeFormatter env rest pos = .ok (v, rest', pos') ↔
      rest = dateText v ++ rest' ∧ (∀ p, v = some p → DateOk env p) ∧
        (v = none → rest'.head? ≠ some 123) ∧ pos' = pos + (dateText v).length := by
  cases rest with
  | nil =>
    simp only [Compiler.dateTimeFormatter, Except.ok.injEq, Prod.mk.injEq]
    constructor
    · rintro ⟨rfl, rfl, rfl⟩
      simp [dateText]
    · rintro ⟨h1, h2, h3, h4⟩
      obtain ⟨h5, rfl⟩ := List.append_eq_nil_iff.1 h1.symm
      cases v with
      | none => exact ⟨rfl, rfl, by simpa [dateText] using h4.symm⟩
      | some p => simp [dateText] at h5
  | cons c rest =>
    unfold Compiler.dateTimeFormatter
    simp only
    by_cases hb : c = 123
    · subst hb
      simp only [ne_eq, not_true_eq_false, if_false]
      have key : (123 :: rest = dateText v ++ rest') → (∀ p, v = some p → DateOk env p) →
          (v = none → rest'.head? ≠ some 123) →
          ∃ p, v = some p ∧ rest = p ++ 125 :: rest' ∧ DateOk env p ∧
            Compiler.scanBrace rest false 0 = some p.length := by
        intro h1 h2 h3
        cases v with
        | none =>
          simp only [dateText, List.nil_append] at h1
          exact absurd (by rw [← h1]; rfl) (h3 rfl)
        | some p =>
          have hp := h2 p rfl
          simp only [dateText, List.cons_append, List.nil_append, List.append_assoc,
            List.cons.injEq, true_and] at h1
          refine ⟨p, rfl, h1, hp, ?_⟩
          rw [scanBrace_iff]
          refine ⟨p.length, by omega, ?_⟩
          rw [h1]
          exact (firstClose_dateOk p rest').2 ⟨hp.2.1, hp.2.2.1⟩
      cases hsb : Compiler.scanBrace rest false 0 with
      | none =>
        simp only [reduceCtorEq, false_iff]
        rintro ⟨h1, h2, h3, h4⟩
        obtain ⟨p, _, _, _, h5⟩ := key h1 h2 h3
        rw [hsb] at h5; cases h5
      | some n =>
        simp only
        obtain ⟨m, rfl, pre, post, rfl, rfl, h3, h4⟩ := (scanBrace_iff _ _ _ _).1 hsb
        simp only [Nat.zero_add] at hsb ⊢
        have htake : (pre ++ 125 :: post).take pre.length = pre := by simp
        have hdrop : (pre ++ 125 :: post).drop (pre.length + 1) = post := by
          rw [← List.drop_drop]; simp
        rw [htake, hdrop]
        have key2 : (123 :: (pre ++ 125 :: post) = dateText v ++ rest') →
            (∀ p, v = some p → DateOk env p) →
            (v = none → rest'.head? ≠ some 123) → v = some pre ∧ rest' = post ∧ DateOk env pre := by
          intro h1 h2 h3
          obtain ⟨p, rfl, g1, g2, g3⟩ := key h1 h2 h3
          rw [hsb] at g3
          obtain ⟨rfl, g4⟩ := List.append_inj g1 (Option.some.inj g3)
          simp only [List.cons.injEq, true_and] at g4
          exact ⟨rfl, g4.symm, g2⟩
        by_cases hp : pre = []
        · rw [if_pos hp]
          simp only [reduceCtorEq, false_iff]
          rintro ⟨g1, g2, g3, g4⟩
          exact (key2 g1 g2 g3).2.2.1 hp
        · rw [if_neg hp]
          by_cases hv : env.valid pre = true
          · rw [if_pos hv]
            simp only [Except.ok.injEq, Prod.mk.injEq]
            constructor
            · rintro ⟨rfl, rfl, rfl⟩
              refine ⟨by simp [dateText], ?_, by simp, by simp [dateText]; omega⟩
              intro p hp'; cases hp'
              exact ⟨hp, by simpa using h3, fun a b hab => by simpa using h4 a b hab, hv⟩
            · rintro ⟨g1, g2, g3, g4⟩
              obtain ⟨rfl, rfl, _⟩ := key2 g1 g2 g3
              exact ⟨rfl, rfl, by simp [dateText] at g4; omega⟩
          · rw [if_neg hv]
            simp only [reduceCtorEq, false_iff]
            rintro ⟨g1, g2, g3, g4⟩
            exact hv (key2 g1 g2 g3).2.2.2.2.2
    · rw [if_pos hb]
      simp only [Except.ok.injEq, Prod.mk.injEq]
      constructor
      · rintro ⟨rfl, rfl, rfl⟩
        simp [dateText, hb]
      · rintro ⟨h1, h2, h3, h4⟩
        cases v with
        | none =>
          simp only [dateText, List.nil_append] at h1
          subst h1
          exact ⟨rfl, rfl, by simpa [dateText] using h4.symm⟩
        | some p =>
          simp only [dateText, List.cons_append, List.cons.injEq] at h1
          exact absurd h1.1 hb

theorem dateTimeFormatter_err {env : DateSyntax} {rest : JStr} {pos : Nat} {e : Err}
    (h : Compiler.dateTimeFormatter env rest pos = .error e) :
    Located pos (pos + rest.length) e := by
  cases rest with
  | nil => cases h
  | cons c rest =>
    unfold Compiler.dateTimeFormatter at h
    simp only at h
    split_ifs at h
    split at h
    · cases h; exact ⟨_, _, rfl, by omega, by omega⟩
    · split_ifs at h
      · cases h; exact ⟨_, _, rfl, by omega, by simp⟩
      · cases h; exact ⟨_, _, rfl, by omega, by simp⟩

/-! ### Directives -/

theorem bind_eq_ok {α β : Type} {x : Res α} {f : α → Res β} {b : β} :
    (x >>= f) = .ok b ↔ ∃ a, x = .ok a ∧ f a = .ok b := by
  cases x with
  | error e => simp
  | ok a => simp

theorem bind_eq_error {α β : Type} {x : Res α} {f : α → Res β} {e : Err} :
    (x >>= f) = .error e ↔ x = .error e ∨ ∃ a, x = .ok a ∧ f a = .error e := by
  cases x with
  | error e' => simp
  | ok a => simp

theorem create_ok {fs : Flags} {w p : Int} {dtf : Option JStr} {ctx : FormatContext} :
    FormatContext.create fs w p dtf = .ok ctx ↔
      FormatContext.checkValue .width w = .ok () ∧ FormatContext.checkValue .precision p = .ok () ∧
      ctx = { flags := fs, width := w, precision := p, dateTimeFormatter := dtf } := by
  unfold FormatContext.create
  rw [bind_eq_ok]
  simp only [bind_eq_ok, pure_eq_ok, Except.ok.injEq]
  constructor
  · rintro ⟨_, h1, _, h2, rfl⟩; exact ⟨h1, h2, rfl⟩
  · rintro ⟨h1, h2, rfl⟩; exact ⟨(), h1, (), h2, rfl⟩

theorem num_check {name : NumName} {n : Num} :
    (NumWritten n ∧ FormatContext.checkValue name n.value = .ok ()) ↔ n.Ok := by
  cases n with
  | absent => simp only [NumWritten, Num.Ok, Num.value, true_and, checkValue_ok]; simp
  | star => simp only [NumWritten, Num.Ok, Num.value, true_and, checkValue_ok]; simp
  | digits ds =>
    have e1 : UNSET = -1 := rfl
    have e2 : PRECEDING = -2147483648 := rfl
    have e3 : intMax = 2147483647 := rfl
    simp only [NumWritten, Num.Ok, Num.value, checkValue_ok, numberCap]
    constructor
    · rintro ⟨⟨h1, h2⟩, h3⟩; exact ⟨h1, by omega⟩
    · rintro ⟨h1, h2⟩; exact ⟨⟨h1, by omega⟩, by omega⟩

theorem conv_facts {c : JChar} (h : c ∈ convChars) :
    ¬ IsDigit c ∧ c ∉ flagChars ∧ c ≠ 42 ∧ c ≠ 46 := by
  have := (by decide : ∀ c ∈ convChars, ¬ (48 ≤ c ∧ c ≤ 57) ∧ c ∉ flagChars ∧ c ≠ 42 ∧ c ≠ 46) c h
  exact this

theorem head_prec (p : Num) (c : JChar) (t : JStr) :
    (precText p ++ c :: t).head? = some (if p = .absent then c else 46) := by
  cases p <;> simp [precText]

theorem head_width {w : Num} (hw : WidthOk w) (t : JStr) {c : JChar}
    (h : (w.text ++ t).head? = some c) :
    (w = .absent ∧ t.head? = some c) ∨ c = 42 ∨ (IsDigit c ∧ c ≠ 48) := by
  cases w with
  | absent => left; exact ⟨rfl, by simpa [Num.text] using h⟩
  | star => right; left; simpa [Num.text, eq_comm] using h
  | digits ds =>
    right; right
    cases ds with
    | nil => exact absurd rfl hw.1
    | cons d ds =>
      simp only [Num.text, List.cons_append, List.head?_cons, Option.some.injEq] at h
      subst h
      have := hw.2.1
      simp only [List.head?_cons, ne_eq, Option.some.injEq] at this
      exact ⟨hw.2.2.1 d (by simp), this⟩

theorem flagSet_eq {fs : Flags} {fl : JStr}
    (h : ∀ f, fs.contains f = (({} : Flags).contains f || fl.contains (FormatContext.flagChar f))) :
    fs = flagSet fl := by
  apply Flags.ext_contains
  intro f
  rw [h f, flagSet_contains]
  cases f <;> simp [Flags.contains]

/-- What may come right after a piece, in terms of text. -/
def Follow (p : Piece) (rest : JStr) : Prop :=
  ∀ d, p = .dir d → IsDateConv d.conv → d.date = none → rest.head? ≠ some 123

theorem forPattern_iff (env : DateSyntax) (rest : JStr) (pos : Nat) (a : Appender) (rest' : JStr)
    (pos' : Nat) :
    Compiler.forPattern env rest pos = .ok (a, rest', pos') ↔
      ∃ p : Piece, (∀ s, p ≠ .lit s) ∧ 37 :: rest = p.text ++ rest' ∧ p.Ok env ∧ Follow p rest' ∧
        a = p.compiled ∧ pos' + 1 = pos + p.text.length := by
  cases rest with
  | nil =>
    simp only [Compiler.forPattern, reduceCtorEq, false_iff, not_exists]
    rintro p ⟨h1, h2, h3, h4, h5, h6⟩
    cases p with
    | lit s => exact h1 s rfl
    | percent => simp [Piece.text] at h2
    | dir d =>
      have := congrArg List.length h2
      simp only [Piece.text, Directive.text, List.length_append, List.length_cons,
        List.length_nil] at this
      omega
  | cons c rest =>
    unfold Compiler.forPattern
    simp only
    by_cases hc : c = 37
    · subst hc
      simp only [if_true, Except.ok.injEq, Prod.mk.injEq]
      constructor
      · rintro ⟨rfl, rfl, rfl⟩
        exact ⟨.percent, by simp, by simp [Piece.text], trivial, (by intro d hd; cases hd), rfl,
          by simp [Piece.text]⟩
      · rintro ⟨p, h1, h2, h3, h4, h5, h6⟩
        cases p with
        | lit s => exact absurd rfl (h1 s)
        | percent =>
          simp only [Piece.text, List.cons_append, List.nil_append, List.cons.injEq, true_and] at h2
          subst h2 h5
          exact ⟨rfl, rfl, by simp [Piece.text] at h6; omega⟩
        | dir d =>
          exfalso
          have hd : d.Ok env := h3
          simp only [Piece.text, Directive.text, List.cons_append, List.nil_append,
            List.append_assoc, List.cons.injEq, true_and] at h2
          have hf := conv_facts hd.conv
          cases hfl : d.flags with
          | cons x fl =>
            rw [hfl] at h2
            simp only [List.cons_append, List.cons.injEq] at h2
            have := hd.flagsOk x (by simp [hfl])
            rw [← h2.1] at this
            exact absurd this (by decide)
          | nil =>
            rw [hfl, List.nil_append] at h2
            have hh : (d.width.text ++ (precText d.prec ++ (d.conv :: (dateText d.date ++ rest')))).head?
                = some 37 := by rw [← h2]; rfl
            rcases head_width hd.width _ hh with ⟨h7, h8⟩ | h7 | h7
            · rw [head_prec] at h8
              by_cases hp : d.prec = .absent
              · rw [if_pos hp] at h8
                exact hd.notPercent (Option.some.inj h8) ⟨hfl, h7, hp⟩
              · rw [if_neg hp] at h8
                simp at h8
            · omega
            · unfold IsDigit at h7; omega
    · rw [if_neg hc]
      constructor
      · intro h
        simp only [bind_eq_ok, Prod.exists] at h
        obtain ⟨fs, r1, p1, h1, w, r2, p2, h2, p, r3, p3, h3, sp, r4, p4, h4, dtf, r5, p5, h5,
          ctx, h6, h7⟩ := h
        simp only [pure_eq_ok, Except.ok.injEq, Prod.mk.injEq] at h7
        obtain ⟨rfl, rfl, rfl⟩ := h7
        obtain ⟨fl, a1, a2, a3, a4, a5, a6, rfl⟩ := (flags_iff _ _ _ _ _ _).1 h1
        have hr1 : r1.head? ≠ some 48 := fun hh => a5 48 hh (by decide)
        obtain ⟨nw, b1, b2, b3, b4, b5, rfl, rfl⟩ := (width_iff _ _ _ _ _ hr1).1 h2
        obtain ⟨np, c1, c2, c3, c4, c5, rfl, rfl⟩ := (precision_iff _ _ _ _ _).1 h3
        obtain ⟨cv, d1, d2, rfl, rfl⟩ := (specifier_iff _ _ _ _ _).1 h4
        obtain ⟨e1, e2, rfl⟩ := create_ok.1 h6
        have hdate : r4 = dateText dtf ++ r5 ∧ (∀ q, dtf = some q → IsDateConv cv ∧ DateOk env q) ∧
            (IsDateConv cv → dtf = none → r5.head? ≠ some 123) ∧
            p5 = pos + fl.length + nw.text.length + (precText np).length + 1 + (dateText dtf).length := by
          unfold Compiler.datePart at h5
          by_cases hdt : (convOf cv).isDateTime = true
          · rw [if_pos hdt] at h5
            obtain ⟨f1, f2, f3, f4⟩ := (dateTimeFormatter_iff _ _ _ _ _ _).1 h5
            exact ⟨f1, fun q hq => ⟨(isDateTime_iff d2).1 hdt, f2 q hq⟩, fun _ => f3, f4⟩
          · rw [if_neg hdt] at h5
            simp only [Except.ok.injEq, Prod.mk.injEq] at h5
            obtain ⟨rfl, rfl, rfl⟩ := h5
            refine ⟨rfl, by simp, ?_, rfl⟩
            intro hd; exact absurd ((isDateTime_iff d2).2 hd) hdt
        obtain ⟨f1, f2, f3, rfl⟩ := hdate
        refine ⟨.dir ⟨fl, nw, np, cv, dtf⟩, by simp, ?_, ?_, ?_, ?_, ?_⟩
        · simp only [Piece.text, Directive.text, List.cons_append, List.nil_append,
            List.append_assoc, List.cons.injEq, true_and]
          rw [a1, b1, c1, d1, f1]
        · refine ⟨a2, a3, ?_, num_check.1 ⟨c2, e2⟩, d2, f2, ?_⟩
          · have hok := num_check.1 ⟨b2, e1⟩
            cases nw with
            | absent => trivial
            | star => trivial
            | digits ds => exact ⟨(b3 ds rfl).1, (b3 ds rfl).2, hok⟩
          · rintro rfl ⟨rfl, rfl, rfl⟩
            simp only [Num.text, precText, List.nil_append] at b1 c1 a1
            rw [b1, c1, d1] at a1
            simp only [List.cons.injEq] at a1
            exact hc a1.1
        · intro d hd
          cases hd
          exact f3
        · simp only [Piece.compiled]
          rw [flagSet_eq a6]
        · simp [Piece.text, Directive.text]
          omega
      · rintro ⟨p, h1, h2, h3, h4, h5, h6⟩
        cases p with
        | lit s => exact absurd rfl (h1 s)
        | percent =>
          simp only [Piece.text, List.cons_append, List.nil_append, List.cons.injEq, true_and] at h2
          exact absurd h2.1 hc
        | dir d =>
          have hd : d.Ok env := h3
          have hf := conv_facts hd.conv
          simp only [Piece.text, Directive.text, List.cons_append, List.nil_append,
            List.append_assoc, List.cons.injEq, true_and] at h2
          set r4 := dateText d.date ++ rest' with hr4
          set r3 := d.conv :: r4 with hr3
          set r2 := precText d.prec ++ r3 with hr2
          set r1 := d.width.text ++ r2 with hr1
          have hh2 : ∀ x, r2.head? = some x → ¬ IsDigit x ∧ x ∉ flagChars ∧ x ≠ 42 := by
            intro x hx
            rw [hr2, hr3, head_prec] at hx
            simp only [Option.some.injEq] at hx
            subst hx
            split_ifs
            · exact ⟨hf.1, hf.2.1, hf.2.2.1⟩
            · exact ⟨by unfold IsDigit; omega, by decide, by omega⟩
          have s1 := (flags_iff (c :: rest) pos {} (flagSet d.flags) r1 (pos + d.flags.length)).2
            ⟨d.flags, h2, hd.flagsOk, hd.noRepeat, (by intro f _; cases f <;> rfl),
              (by
                intro x hx
                rcases head_width hd.width _ hx with ⟨_, h7⟩ | h7 | h7
                · exact (hh2 x h7).2.1
                · subst h7; decide
                · intro hm
                  have : ∀ y ∈ flagChars, y < 49 ∧ (48 ≤ y → y = 48) := by decide
                  have := this x hm
                  unfold IsDigit at h7
                  omega),
              (by intro f; rw [flagSet_contains]; cases f <;> simp [Flags.contains]), rfl⟩
          have hr1' : r1.head? ≠ some 48 := by
            intro hx
            rcases head_width hd.width _ hx with ⟨_, h7⟩ | h7 | h7
            · exact (hh2 48 h7).2.1 (by decide)
            · omega
            · omega
          have hwOk : d.width.Ok := by
            have := hd.width
            cases hw : d.width with
            | absent => trivial
            | star => trivial
            | digits ds => rw [hw] at this; exact this.2.2
          obtain ⟨w1, w2⟩ := num_check.2 hwOk
          obtain ⟨q1, q2⟩ := num_check.2 hd.prec
          have s2 := (width_iff r1 (pos + d.flags.length) d.width.value r2
            (pos + d.flags.length + d.width.text.length) hr1').2
            ⟨d.width, rfl, w1, (by
                intro ds hds
                have := hd.width
                rw [hds] at this
                exact ⟨this.1, this.2.1⟩),
              (by
                intro _
                refine ⟨by rw [hr2, hr3]; simp, ?_⟩
                intro hx; exact (hh2 42 hx).2.2 rfl),
              (fun _ x hx => (hh2 x hx).1), rfl, rfl⟩
          have s3 := (precision_iff r2 (pos + d.flags.length + d.width.text.length) d.prec.value r3
            (pos + d.flags.length + d.width.text.length + (precText d.prec).length)).2
            ⟨d.prec, rfl, q1,
              (by intro _; rw [hr3]; simpa using hf.2.2.2),
              (by intro _; rw [hr3]; simpa using hf.2.2.1),
              (by intro ds _ x hx; rw [hr3] at hx; simp at hx; subst hx; exact hf.1), rfl, rfl⟩
          have s4 := (specifier_iff r3
            (pos + d.flags.length + d.width.text.length + (precText d.prec).length) (convOf d.conv) r4
            (pos + d.flags.length + d.width.text.length + (precText d.prec).length + 1)).2
            ⟨d.conv, rfl, hd.conv, rfl, rfl⟩
          have s5 : Compiler.datePart env (convOf d.conv) r4
                (pos + d.flags.length + d.width.text.length + (precText d.prec).length + 1) =
              .ok (d.date, rest', pos + d.flags.length + d.width.text.length +
                (precText d.prec).length + 1 + (dateText d.date).length) := by
            unfold Compiler.datePart
            by_cases hdt : (convOf d.conv).isDateTime = true
            · rw [if_pos hdt, dateTimeFormatter_iff]
              refine ⟨?_, fun q hq => (hd.date q hq).2,
                fun hn => h4 d rfl ((isDateTime_iff hd.conv).1 hdt) hn, ?_⟩ <;> simp [hr4]
            · rw [if_neg hdt]
              cases hdd : d.date with
              | none => rw [hdd] at hr4; simp [dateText, hr4]
              | some q =>
                exact absurd ((isDateTime_iff hd.conv).2 (hd.date q hdd).1) hdt
          have s6 := (create_ok (fs := flagSet d.flags) (dtf := d.date) (ctx := ⟨_, _, _, _⟩)).2 ⟨w2, q2, rfl⟩
          simp only [s1, s2, s3, s4, bind_ok]
          rw [s5]
          simp only [bind_ok, s6, pure_eq_ok, Except.ok.injEq, Prod.mk.injEq]
          refine ⟨h5.symm, by trivial, ?_⟩
          simp [Piece.text, Directive.text] at h6
          omega

theorem forPattern_err {env : DateSyntax} {rest : JStr} {pos : Nat} {e : Err}
    (h : Compiler.forPattern env rest pos = .error e) :
    Located pos (pos + rest.length) e ∨
      ((∃ name v, e = .printf (.exceedsMaximum name v)) ∧ ∃ d post, Directive.OverCap d ∧ 37 :: rest = d.text ++ post) := by
  cases rest with
  | nil => cases h; left; exact ⟨_, _, rfl, by omega, by simp⟩
  | cons c rest =>
    unfold Compiler.forPattern at h
    simp only at h
    by_cases hc : c = 37
    · rw [if_pos hc] at h; cases h
    · rw [if_neg hc] at h
      rcases bind_eq_error.1 h with h | ⟨⟨fs, r1, p1⟩, h1, h⟩
      all_goals try dsimp only at h
      · left; exact flags_err h
      obtain ⟨fl, a1, a2, a3, a4, a5, a6, rfl⟩ := (flags_iff _ _ _ _ _ _).1 h1
      have hr1 : r1.head? ≠ some 48 := fun hh => a5 48 hh (by decide)
      have l1 := congrArg List.length a1
      simp only [List.length_append] at l1
      rcases bind_eq_error.1 h with h | ⟨⟨w, r2, p2⟩, h2, h⟩
      all_goals try dsimp only at h
      · left; exact (width_err h).mono (by omega) (by omega)
      obtain ⟨nw, b1, b2, b3, b4, b5, rfl, rfl⟩ := (width_iff _ _ _ _ _ hr1).1 h2
      have l2 := congrArg List.length b1
      simp only [List.length_append] at l2
      rcases bind_eq_error.1 h with h | ⟨⟨p, r3, p3⟩, h3, h⟩
      all_goals try dsimp only at h
      · left; exact (precision_err h).mono (by omega) (by omega)
      obtain ⟨np, c1, c2, c3, c4, c5, rfl, rfl⟩ := (precision_iff _ _ _ _ _).1 h3
      have l3 := congrArg List.length c1
      simp only [List.length_append] at l3
      rcases bind_eq_error.1 h with h | ⟨⟨sp, r4, p4⟩, h4, h⟩
      all_goals try dsimp only at h
      · left; exact (specifier_err h).mono (by omega) (by omega)
      obtain ⟨cv, d1, d2, rfl, rfl⟩ := (specifier_iff _ _ _ _ _).1 h4
      have l4 := congrArg List.length d1
      simp only [List.length_cons] at l4
      rcases bind_eq_error.1 h with h | ⟨⟨dtf, r5, p5⟩, h5, h⟩
      all_goals try dsimp only at h
      · left
        unfold Compiler.datePart at h
        by_cases hdt : (convOf cv).isDateTime = true
        · rw [if_pos hdt] at h
          exact (dateTimeFormatter_err h).mono (by omega) (by omega)
        · rw [if_neg hdt] at h; cases h
      right
      have hval : ∀ n : Num, -1 ≤ n.value ∨ n.value = PRECEDING := by
        intro n; cases n <;> simp [Num.value, UNSET]
      have big : ∀ n : Num, NumWritten n → 65536 < n.value →
          ∃ ds, n = .digits ds ∧ (∀ c ∈ ds, IsDigit c) ∧ numberCap < decimalValue ds := by
        intro n hn hv
        cases n with
        | absent => simp [Num.value, UNSET] at hv
        | star => simp [Num.value, PRECEDING, intMin] at hv
        | digits ds =>
          refine ⟨ds, rfl, hn.1, ?_⟩
          simp only [Num.value] at hv
          unfold numberCap
          omega
      have text : 37 :: c :: rest = (Directive.mk fl nw np cv none).text ++ r4 := by
        simp only [Directive.text, dateText, List.cons_append, List.nil_append,
            List.append_assoc, List.cons.injEq, true_and]
        rw [a1, b1, c1, d1]
      rcases bind_eq_error.1 h with h | ⟨ctx, h6, h⟩
      · unfold FormatContext.create at h
        rcases bind_eq_error.1 h with h | ⟨_, _, h⟩
        · obtain ⟨ds, k1, k2⟩ := big nw b2 (checkValue_err (hval _) h).2
          exact ⟨⟨_, _, (checkValue_err (hval _) h).1⟩, ⟨fl, nw, np, cv, none⟩, r4,
            ⟨a2, d2, ds, Or.inl k1, k2⟩, text⟩
        rcases bind_eq_error.1 h with h | ⟨_, _, h⟩
        · obtain ⟨ds, k1, k2⟩ := big np c2 (checkValue_err (hval _) h).2
          exact ⟨⟨_, _, (checkValue_err (hval _) h).1⟩, ⟨fl, nw, np, cv, none⟩, r4,
            ⟨a2, d2, ds, Or.inr k1, k2⟩, text⟩
        · cases h
      · cases h

/-! ### Whole format strings -/

theorem literalRun_spec (s : JStr) :
    s = (Compiler.literalRun s).1 ++ (Compiler.literalRun s).2 ∧ 37 ∉ (Compiler.literalRun s).1 ∧
    (∀ c, (Compiler.literalRun s).2.head? = some c → c = 37) := by
  induction s with
  | nil => simp [Compiler.literalRun]
  | cons c s ih =>
    unfold Compiler.literalRun
    by_cases h : c = 37
    · simp [h]
    · simp only [if_neg h]
      refine ⟨?_, ?_, ih.2.2⟩
      · simp only [List.cons_append, ← ih.1]
      · intro hm
        rcases List.mem_cons.1 hm with hm | hm
        · exact h hm.symm
        · exact ih.2.1 hm

theorem literalRun_append (l r : JStr) (h : 37 ∉ l) (hr : ∀ c, r.head? = some c → c = 37) :
    Compiler.literalRun (l ++ r) = (l, r) := by
  induction l with
  | nil =>
    cases r with
    | nil => rfl
    | cons c r => simp [Compiler.literalRun, hr c rfl]
  | cons c l ih =>
    simp only [List.mem_cons, not_or] at h
    have : ¬ c = 37 := fun hc => h.1 hc.symm
    simp only [List.cons_append, Compiler.literalRun, if_neg this, ih h.2]

theorem text_ne_nil {env : DateSyntax} {p : Piece} (h : p.Ok env) : p.text ≠ [] := by
  cases p with
  | lit s => exact h.1
  | percent => simp [Piece.text]
  | dir d => simp [Piece.text, Directive.text]

theorem text_head {p : Piece} (h : ∀ s, p ≠ .lit s) (rest : JStr) :
    (p.text ++ rest).head? = some 37 := by
  cases p with
  | lit s => exact absurd rfl (h s)
  | percent => rfl
  | dir d => simp [Piece.text, Directive.text]

theorem text_length {p : Piece} (h : ∀ s, p ≠ .lit s) : 2 ≤ p.text.length := by
  cases p with
  | lit s => exact absurd rfl (h s)
  | percent => simp [Piece.text]
  | dir d => simp [Piece.text, Directive.text]; omega

theorem mayFollow_iff {p : Piece} (h : ∀ s, p ≠ .lit s) (ps : List Piece) :
    MayFollow p ps ↔ Follow p (ps.flatMap Piece.text) := by
  cases p with
  | lit s => exact absurd rfl (h s)
  | percent => simp [MayFollow, Follow]
  | dir d =>
    simp only [MayFollow, Follow, Piece.dir.injEq]
    constructor
    · rintro h1 _ rfl; exact h1
    · intro h1; exact h1 d rfl

/-- Reading a non-literal first piece. -/
theorem reading_cons {env : DateSyntax} {s : JStr} {p : Piece} {ps : List Piece}
    (h : ∀ s, p ≠ .lit s) :
    Reading env s (p :: ps) ↔ ∃ rest, s = p.text ++ rest ∧ p.Ok env ∧ Follow p rest ∧
      Reading env rest ps := by
  constructor
  · rintro ⟨h1, h2, h3⟩
    refine ⟨ps.flatMap Piece.text, by rw [← h1]; rfl, h2 p (by simp), (mayFollow_iff h ps).1 h3.1,
      rfl, fun q hq => h2 q (List.mem_cons_of_mem _ hq), h3.2⟩
  · rintro ⟨rest, rfl, h2, h3, ⟨h4, h5, h6⟩⟩
    refine ⟨by simp [h4], ?_, ⟨(mayFollow_iff h ps).2 (by rw [h4]; exact h3), h6⟩⟩
    intro q hq
    rcases List.mem_cons.1 hq with rfl | hq
    · exact h2
    · exact h5 q hq

theorem reading_nil {env : DateSyntax} {s : JStr} : Reading env s [] ↔ s = [] := by
  constructor
  · intro h; exact h.text.symm
  · rintro rfl; exact ⟨rfl, by simp, trivial⟩

theorem reading_of_nil {env : DateSyntax} {ps : List Piece} : Reading env [] ps ↔ ps = [] := by
  constructor
  · intro h
    cases ps with
    | nil => rfl
    | cons p ps =>
      have h1 := h.text
      simp only [List.flatMap_cons, List.append_eq_nil_iff] at h1
      exact absurd h1.1 (text_ne_nil (h.ok p (by simp)))
  · rintro rfl; exact reading_nil.2 rfl

/-- Reading a literal first piece. -/
theorem reading_lit {env : DateSyntax} {s l : JStr} {ps : List Piece} :
    Reading env s (.lit l :: ps) ↔ ∃ rest, s = l ++ rest ∧ l ≠ [] ∧ 37 ∉ l ∧
      (∀ c, rest.head? = some c → c = 37) ∧ Reading env rest ps := by
  constructor
  · rintro ⟨h1, h2, h3⟩
    have hl := h2 (.lit l) (by simp)
    refine ⟨ps.flatMap Piece.text, by rw [← h1]; rfl, hl.1, hl.2, ?_,
      rfl, fun q hq => h2 q (List.mem_cons_of_mem _ hq), h3.2⟩
    intro c hc
    cases ps with
    | nil => simp at hc
    | cons p ps =>
      have hp : ∀ s, p ≠ .lit s := fun s hs => h3.1 s (by simp [hs])
      rw [List.flatMap_cons, text_head hp] at hc
      exact (Option.some.inj hc).symm
  · rintro ⟨rest, rfl, h2, h3, h4, ⟨h5, h6, h7⟩⟩
    refine ⟨by simp [Piece.text, h5], ?_, ⟨?_, h7⟩⟩
    · intro q hq
      rcases List.mem_cons.1 hq with rfl | hq
      · exact ⟨h2, h3⟩
      · exact h6 q hq
    · intro s hs
      cases ps with
      | nil => simp at hs
      | cons p ps =>
        simp only [List.head?_cons, Option.some.injEq] at hs
        subst hs
        have hq := h6 (.lit s) (by simp)
        cases hs' : s with
        | nil => exact hq.1 hs'
        | cons c s' =>
          subst hs'
          have : c = 37 := h4 c (by rw [← h5]; simp [Piece.text])
          exact hq.2 (by simp [this])

theorem parseNext_iff (env : DateSyntax) (fuel : Nat) (rest : JStr) (pos : Nat)
    (apps : List Appender) (hf : rest.length < fuel) :
    Compiler.parseNext env fuel rest pos = .ok apps ↔
      ∃ ps, Reading env rest ps ∧ apps = ps.map Piece.compiled := by
  induction fuel generalizing rest pos apps with
  | zero => omega
  | succ fuel ih =>
    unfold Compiler.parseNext
    cases rest with
    | nil =>
      simp only [Except.ok.injEq, reading_of_nil]
      constructor
      · rintro rfl; exact ⟨[], rfl, rfl⟩
      · rintro ⟨_, rfl, rfl⟩; rfl
    | cons c rest =>
      simp only [List.length_cons] at hf
      have shorter : ∀ {p : Piece} {r t : JStr}, (∀ s, p ≠ .lit s) → 37 :: r = p.text ++ t →
          t.length < r.length := by
        intro p r t h1 h2
        have := congrArg List.length h2
        have := text_length h1
        simp only [List.length_cons, List.length_append] at *
        omega
      simp only
      by_cases hc : c = 37
      · subst hc
        rw [if_pos rfl]
        simp only [bind_eq_ok, Prod.exists, pure_eq_ok, Except.ok.injEq]
        constructor
        · rintro ⟨a, r1, p1, h1, as, h2, rfl⟩
          obtain ⟨p, g1, g2, g3, g4, rfl, g6⟩ := (forPattern_iff _ _ _ _ _ _).1 h1
          have := shorter g1 g2
          obtain ⟨ps, k1, rfl⟩ := (ih r1 p1 as (by omega)).1 h2
          exact ⟨p :: ps, (reading_cons g1).2 ⟨r1, g2, g3, g4, k1⟩, rfl⟩
        · rintro ⟨ps, h1, rfl⟩
          cases ps with
          | nil => have := h1.text; simp at this
          | cons p ps =>
            have hp : ∀ s, p ≠ .lit s := by
              rintro s rfl
              obtain ⟨r, k1, k2, k3, _⟩ := reading_lit.1 h1
              cases s with
              | nil => exact k2 rfl
              | cons d s =>
                simp only [List.cons_append, List.cons.injEq] at k1
                exact k3 (by simp [k1.1])
            obtain ⟨r, k1, k2, k3, k4⟩ := (reading_cons hp).1 h1
            have := shorter hp k1
            have hlen := congrArg List.length k1
            have h2 := text_length hp
            simp only [List.length_cons, List.length_append] at hlen
            refine ⟨p.compiled, r, pos + p.text.length, ?_, ps.map Piece.compiled, ?_, rfl⟩
            · rw [forPattern_iff]
              exact ⟨p, hp, k1, k2, k3, rfl, by omega⟩
            · exact (ih r _ _ (by omega)).2 ⟨ps, k4, rfl⟩
      · rw [if_neg hc]
        obtain ⟨t1, t2, t3⟩ := literalRun_spec (c :: rest)
        have hne : (Compiler.literalRun (c :: rest)).1 ≠ [] := by
          unfold Compiler.literalRun; simp [hc]
        have uniq : ∀ {ps : List Piece}, Reading env (c :: rest) ps →
            ∃ ps', ps = .lit (Compiler.literalRun (c :: rest)).1 :: ps' ∧
              Reading env (Compiler.literalRun (c :: rest)).2 ps' := by
          intro ps h
          cases ps with
          | nil => have := h.text; simp at this
          | cons p ps =>
            cases p with
            | lit l =>
              obtain ⟨r, k1, k2, k3, k4, k5⟩ := reading_lit.1 h
              have := literalRun_append l r k3 k4
              rw [k1, this]
              exact ⟨ps, rfl, k5⟩
            | percent =>
              have := h.text
              simp [Piece.text] at this
              exact absurd this.1.symm hc
            | dir d =>
              have := h.text
              simp [Piece.text, Directive.text] at this
              exact absurd this.1.symm hc
        generalize Compiler.literalRun (c :: rest) = lr at *
        obtain ⟨lit, r⟩ := lr
        simp only at t1 t2 t3 hne uniq ⊢
        cases r with
        | nil =>
          simp only [Except.ok.injEq]
          constructor
          · rintro rfl
            refine ⟨[.lit lit], ?_, rfl⟩
            rw [reading_lit]
            exact ⟨[], t1, hne, t2, by simp, reading_nil.2 rfl⟩
          · rintro ⟨ps, h1, rfl⟩
            obtain ⟨ps', rfl, h2⟩ := uniq h1
            rw [reading_of_nil.1 h2]; rfl
        | cons x r1 =>
          have hx : x = 37 := t3 x rfl
          subst hx
          have hlen := congrArg List.length t1
          simp only [List.length_cons, List.length_append] at hlen
          simp only [bind_eq_ok, Prod.exists, pure_eq_ok, Except.ok.injEq]
          constructor
          · rintro ⟨a, r2, p2, h1, as, h2, rfl⟩
            obtain ⟨p, g1, g2, g3, g4, rfl, g6⟩ := (forPattern_iff _ _ _ _ _ _).1 h1
            have := shorter g1 g2
            obtain ⟨ps, k1, rfl⟩ := (ih r2 p2 as (by omega)).1 h2
            refine ⟨.lit lit :: p :: ps, ?_, rfl⟩
            rw [reading_lit]
            exact ⟨37 :: r1, t1, hne, t2, t3, (reading_cons g1).2 ⟨r2, g2, g3, g4, k1⟩⟩
          · rintro ⟨ps, h1, rfl⟩
            obtain ⟨ps', rfl, h2⟩ := uniq h1
            cases ps' with
            | nil => have := h2.text; simp at this
            | cons p ps =>
              have hp : ∀ s, p ≠ .lit s := by
                rintro s rfl
                obtain ⟨r, k1, k2, k3, _⟩ := reading_lit.1 h2
                cases s with
                | nil => exact k2 rfl
                | cons d s =>
                  simp only [List.cons_append, List.cons.injEq] at k1
                  exact k3 (by simp [k1.1])
              obtain ⟨r, k1, k2, k3, k4⟩ := (reading_cons hp).1 h2
              have := shorter hp k1
              have h2 := text_length hp
              refine ⟨p.compiled, r, pos + lit.length + p.text.length, ?_, ps.map Piece.compiled, ?_, rfl⟩
              · rw [forPattern_iff]
                exact ⟨p, hp, k1, k2, k3, rfl, by omega⟩
              · exact (ih r _ _ (by omega)).2 ⟨ps, k4, rfl⟩

theorem parseNext_err {env : DateSyntax} {fuel : Nat} {rest : JStr} {pos : Nat} {e : Err}
    (hf : rest.length < fuel) (h : Compiler.parseNext env fuel rest pos = .error e) :
    Located pos (pos + rest.length) e ∨ ((∃ name v, e = .printf (.exceedsMaximum name v)) ∧
      ∃ pre d post, Directive.OverCap d ∧ rest = pre ++ d.text ++ post) := by
  induction fuel generalizing rest pos with
  | zero => omega
  | succ fuel ih =>
    unfold Compiler.parseNext at h
    cases rest with
    | nil => cases h
    | cons c rest =>
      simp only [List.length_cons] at hf ⊢
      simp only at h
      by_cases hc : c = 37
      · rw [if_pos hc] at h
        rcases bind_eq_error.1 h with h | ⟨⟨a, r1, p1⟩, h1, h⟩
        all_goals try dsimp only at h
        · refine (forPattern_err h).imp (·.mono (by omega) (by omega)) ?_
          rintro ⟨h2, d, post, h3, h4⟩
          exact ⟨h2, [], d, post, h3, by rw [hc, h4]; rfl⟩
        obtain ⟨p, g1, g2, g3, g4, rfl, g6⟩ := (forPattern_iff _ _ _ _ _ _).1 h1
        have hl := congrArg List.length g2
        have := text_length g1
        simp only [List.length_cons, List.length_append] at hl
        rcases bind_eq_error.1 h with h | ⟨as, h2, h⟩
        · refine (ih (by omega) h).imp (·.mono (by omega) (by omega)) ?_
          rintro ⟨h2, pre, d, post, h3, h4⟩
          exact ⟨h2, p.text ++ pre, d, post, h3, by rw [hc, g2, h4]; simp⟩
        · cases h
      · rw [if_neg hc] at h
        obtain ⟨t1, t2, t3⟩ := literalRun_spec (c :: rest)
        generalize Compiler.literalRun (c :: rest) = lr at *
        obtain ⟨lit, r⟩ := lr
        simp only at t1 t2 t3 h
        cases r with
        | nil => cases h
        | cons x r1 =>
          have hlen := congrArg List.length t1
          simp only [List.length_cons, List.length_append] at hlen
          simp only at h
          rcases bind_eq_error.1 h with h | ⟨⟨a, r2, p2⟩, h1, h⟩
          all_goals try dsimp only at h
          · refine (forPattern_err h).imp (·.mono (by omega) (by omega)) ?_
            rintro ⟨h2, d, post, h3, h4⟩
            exact ⟨h2, lit, d, post, h3, by rw [t1, t3 x rfl, h4]; simp⟩
          obtain ⟨p, g1, g2, g3, g4, rfl, g6⟩ := (forPattern_iff _ _ _ _ _ _).1 h1
          have hl := congrArg List.length g2
          have := text_length g1
          simp only [List.length_cons, List.length_append] at hl
          rcases bind_eq_error.1 h with h | ⟨as, h2, h⟩
          · refine (ih (by omega) h).imp (·.mono (by omega) (by omega)) ?_
            rintro ⟨h2, pre, d, post, h3, h4⟩
            exact ⟨h2, lit ++ p.text ++ pre, d, post, h3, by rw [t1, t3 x rfl, g2, h4]; simp⟩
          · cases h

theorem compile_iff (env : DateSyntax) (s : JStr) (apps : List Appender) :
    Compiler.compile env s = .ok apps ↔ ∃ ps, Reading env s ps ∧ apps = ps.map Piece.compiled :=
  parseNext_iff env _ s 0 apps (by omega)

theorem compile_err {env : DateSyntax} {s : JStr} {e : Err} (h : Compiler.compile env s = .error e) :
    Located 0 s.length e ∨ ((∃ name v, e = .printf (.exceedsMaximum name v)) ∧
      ∃ pre d post, Directive.OverCap d ∧ s = pre ++ d.text ++ post) := by
  have := parseNext_err (by omega) h
  simpa using this

end FastPrintf
