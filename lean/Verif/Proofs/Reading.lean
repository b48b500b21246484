/-
Readings of format strings are unique, and readings of two strings glue to a reading of their
concatenation.
-/
import Verif.Proofs.Compiler

namespace FastPrintf
open Spec

theorem head?_append_ne {a b : JStr} (h : a ≠ []) : (a ++ b).head? = a.head? := by
  cases a with
  | nil => exact absurd rfl h
  | cons c a => rfl

/-- Splitting off a maximal run is unambiguous. -/
theorem split_unique {P : JChar → Prop} {a b a' b' : JStr} (h1 : ∀ c ∈ a, P c) (h2 : ∀ c ∈ a', P c)
    (h3 : ∀ c, b.head? = some c → ¬ P c) (h4 : ∀ c, b'.head? = some c → ¬ P c)
    (h : a ++ b = a' ++ b') : a = a' ∧ b = b' := by
  induction a generalizing a' with
  | nil =>
    cases a' with
    | nil => exact ⟨rfl, h⟩
    | cons c a' =>
      simp only [List.nil_append, List.cons_append] at h
      exact absurd (h2 c (by simp)) (h3 c (by rw [h]; rfl))
  | cons c a ih =>
    cases a' with
    | nil =>
      simp only [List.nil_append, List.cons_append] at h
      exact absurd (h1 c (by simp)) (h4 c (by rw [← h]; rfl))
    | cons d a' =>
      simp only [List.cons_append, List.cons.injEq] at h
      obtain ⟨rfl, h⟩ := h
      obtain ⟨rfl, rfl⟩ := ih (fun x hx => h1 x (List.mem_cons_of_mem _ hx))
        (fun x hx => h2 x (List.mem_cons_of_mem _ hx)) h
      exact ⟨rfl, rfl⟩

theorem width_unique {w w' : Num} (hw : WidthOk w) (hw' : WidthOk w') {r r' : JStr}
    (hr : ∀ c, r.head? = some c → ¬ IsDigit c ∧ c ≠ 42)
    (hr' : ∀ c, r'.head? = some c → ¬ IsDigit c ∧ c ≠ 42)
    (h : w.text ++ r = w'.text ++ r') : w = w' ∧ r = r' := by
  have nd : ¬ IsDigit 42 := by unfold IsDigit; omega
  cases w with
  | absent =>
    cases w' with
    | absent => exact ⟨rfl, h⟩
    | star =>
      simp only [Num.text, List.nil_append, List.cons_append] at h
      exact absurd rfl (hr 42 (by rw [h]; rfl)).2
    | digits ds =>
      simp only [Num.text, List.nil_append] at h
      cases ds with
      | nil => exact absurd rfl hw'.1
      | cons d ds => exact absurd (hw'.2.2.1 d (by simp)) (hr d (by rw [h]; rfl)).1
  | star =>
    cases w' with
    | absent =>
      simp only [Num.text, List.nil_append, List.cons_append] at h
      exact absurd rfl (hr' 42 (by rw [← h]; rfl)).2
    | star => simpa [Num.text] using h
    | digits ds =>
      simp only [Num.text, List.nil_append, List.cons_append] at h
      cases ds with
      | nil => exact absurd rfl hw'.1
      | cons d ds =>
        simp only [List.cons_append, List.cons.injEq] at h
        exact absurd (h.1 ▸ hw'.2.2.1 d (by simp)) nd
  | digits ds =>
    cases w' with
    | absent =>
      simp only [Num.text, List.nil_append] at h
      cases ds with
      | nil => exact absurd rfl hw.1
      | cons d ds => exact absurd (hw.2.2.1 d (by simp)) (hr' d (by rw [← h]; rfl)).1
    | star =>
      simp only [Num.text, List.nil_append, List.cons_append] at h
      cases ds with
      | nil => exact absurd rfl hw.1
      | cons d ds =>
        simp only [List.cons_append, List.cons.injEq] at h
        exact absurd (h.1 ▸ hw.2.2.1 d (by simp)) nd
    | digits ds' =>
      obtain ⟨h1, h2⟩ := split_unique hw.2.2.1 hw'.2.2.1 (fun c hc => (hr c hc).1)
        (fun c hc => (hr' c hc).1) h
      exact ⟨by rw [h1], h2⟩

theorem prec_unique {p p' : Num} (hp : p.Ok) (hp' : p'.Ok) {c c' : JChar} {r r' : JStr}
    (hc : ¬ IsDigit c ∧ c ≠ 42 ∧ c ≠ 46) (hc' : ¬ IsDigit c' ∧ c' ≠ 42 ∧ c' ≠ 46)
    (h : precText p ++ c :: r = precText p' ++ c' :: r') : p = p' ∧ c = c' ∧ r = r' := by
  have nd : ¬ IsDigit 42 := by unfold IsDigit; omega
  have digits_star : ∀ {ds t : JStr} {c : JChar} {r : JStr}, (∀ x ∈ ds, IsDigit x) → c ≠ 42 →
      ds ++ c :: r = 42 :: t → False := by
    intro ds t c r h1 h2 h3
    cases ds with
    | nil => simp at h3; exact h2 h3.1
    | cons d ds =>
      simp only [List.cons_append, List.cons.injEq] at h3
      exact nd (h3.1 ▸ h1 d (by simp))
  cases p with
  | absent =>
    cases p' with
    | absent => simpa [precText] using h
    | star => simp [precText] at h; exact absurd h.1 hc.2.2
    | digits ds => simp [precText] at h; exact absurd h.1 hc.2.2
  | star =>
    cases p' with
    | absent => simp [precText] at h; exact absurd h.1.symm hc'.2.2
    | star => simpa [precText, Num.text] using h
    | digits ds =>
      simp only [precText, Num.text, List.cons_append, List.nil_append, List.cons.injEq, true_and] at h
      exact (digits_star hp'.1 hc'.2.1 h.symm).elim
  | digits ds =>
    cases p' with
    | absent => simp [precText] at h; exact absurd h.1.symm hc'.2.2
    | star =>
      simp only [precText, Num.text, List.cons_append, List.nil_append, List.cons.injEq, true_and] at h
      exact (digits_star hp.1 hc.2.1 h).elim
    | digits ds' =>
      simp only [precText, Num.text, List.cons_append, List.nil_append, List.cons.injEq, true_and] at h
      obtain ⟨rfl, h2⟩ := split_unique hp.1 hp'.1
        (by intro x hx; simp at hx; subst hx; exact hc.1)
        (by intro x hx; simp at hx; subst hx; exact hc'.1) h
      simpa using h2

theorem date_unique {env : DateSyntax} {c : JChar} {p p' : Option JStr} {r r' : JStr}
    (hp : ∀ q, p = some q → IsDateConv c ∧ DateOk env q)
    (hp' : ∀ q, p' = some q → IsDateConv c ∧ DateOk env q)
    (hf : IsDateConv c → p = none → r.head? ≠ some 123)
    (hf' : IsDateConv c → p' = none → r'.head? ≠ some 123)
    (h : dateText p ++ r = dateText p' ++ r') : p = p' ∧ r = r' := by
  cases p with
  | none =>
    cases p' with
    | none => exact ⟨rfl, h⟩
    | some q' =>
      simp only [dateText, List.nil_append, List.cons_append] at h
      exact absurd (by rw [h]; rfl) (hf (hp' q' rfl).1 rfl)
  | some q =>
    cases p' with
    | none =>
      simp only [dateText, List.nil_append, List.cons_append] at h
      exact absurd (by rw [← h]; rfl) (hf' (hp q rfl).1 rfl)
    | some q' =>
      simp only [dateText, List.cons_append, List.nil_append, List.append_assoc, List.cons.injEq,
        true_and] at h
      have h1 := (hp q rfl).2
      have h2 := (hp' q' rfl).2
      have f1 := (firstClose_dateOk q r).2 ⟨h1.2.1, h1.2.2.1⟩
      have f2 := (firstClose_dateOk q' r').2 ⟨h2.2.1, h2.2.2.1⟩
      have s1 := (scanBrace_iff (q ++ 125 :: r) false 0 q.length).2 ⟨q.length, by omega, by simpa using f1⟩
      have s2 := (scanBrace_iff (q' ++ 125 :: r') false 0 q'.length).2 ⟨q'.length, by omega, by simpa using f2⟩
      rw [h, s2] at s1
      obtain ⟨rfl, h3⟩ := List.append_inj h (Option.some.inj s1).symm
      simpa using h3

theorem head_prec_facts {p : Num} {c : JChar} {t : JStr} (hc : c ∈ convChars) {x : JChar}
    (hx : (precText p ++ c :: t).head? = some x) : ¬ IsDigit x ∧ x ∉ flagChars ∧ x ≠ 42 := by
  have hf := conv_facts hc
  rw [head_prec] at hx
  simp only [Option.some.injEq] at hx
  subst hx
  split_ifs
  · exact ⟨hf.1, hf.2.1, hf.2.2.1⟩
  · exact ⟨by unfold IsDigit; omega, by decide, by omega⟩

theorem head_width_facts {w p : Num} (hw : WidthOk w) {c : JChar} {t : JStr} (hc : c ∈ convChars)
    {x : JChar} (hx : (w.text ++ (precText p ++ c :: t)).head? = some x) : x ∉ flagChars := by
  rcases head_width hw _ hx with ⟨_, h7⟩ | h7 | h7
  · exact (head_prec_facts hc h7).2.1
  · subst h7; decide
  · intro hm
    have : ∀ y ∈ flagChars, y < 49 ∧ (48 ≤ y → y = 48) := by decide
    have := this x hm
    unfold IsDigit at h7
    omega

theorem directive_unique {env : DateSyntax} {d d' : Directive} (hd : d.Ok env) (hd' : d'.Ok env)
    {r r' : JStr} (hf : Follow (.dir d) r) (hf' : Follow (.dir d') r')
    (h : d.text ++ r = d'.text ++ r') : d = d' ∧ r = r' := by
  obtain ⟨fl, w, p, c, q⟩ := d
  obtain ⟨fl', w', p', c', q'⟩ := d'
  simp only [Directive.text, List.cons_append, List.nil_append, List.append_assoc, List.cons.injEq,
    true_and] at h
  have f1 := conv_facts hd.conv
  have f2 := conv_facts hd'.conv
  obtain ⟨rfl, h⟩ := split_unique (P := (· ∈ flagChars)) hd.flagsOk hd'.flagsOk
    (fun x hx => head_width_facts hd.width hd.conv hx)
    (fun x hx => head_width_facts hd'.width hd'.conv hx) h
  obtain ⟨rfl, h⟩ := width_unique hd.width hd'.width
    (fun x hx => ⟨(head_prec_facts hd.conv hx).1, (head_prec_facts hd.conv hx).2.2⟩)
    (fun x hx => ⟨(head_prec_facts hd'.conv hx).1, (head_prec_facts hd'.conv hx).2.2⟩) h
  dsimp only at h
  obtain ⟨rfl, rfl, h4⟩ := prec_unique hd.prec hd'.prec ⟨f1.1, f1.2.2⟩ ⟨f2.1, f2.2.2⟩ h
  obtain ⟨rfl, rfl⟩ := date_unique hd.date hd'.date (hf _ rfl) (hf' _ rfl) h4
  exact ⟨rfl, rfl⟩

theorem percent_ne_dir {env : DateSyntax} {d : Directive} (hd : d.Ok env) {r r' : JStr} :
    js! "%%" ++ r ≠ d.text ++ r' := by
  intro h
  have e1 := (forPattern_iff env (37 :: r) 0 (Piece.percent.compiled) r 1).2
    ⟨.percent, by simp, by simp [Piece.text], trivial, (by intro d hd; cases hd), rfl, by simp [Piece.text]⟩
  simp only [Directive.text, List.cons_append, List.nil_append, List.append_assoc, List.cons.injEq,
    true_and] at h
  cases hfl : d.flags with
  | cons x fl =>
    rw [hfl] at h
    simp only [List.cons_append, List.cons.injEq] at h
    have := hd.flagsOk x (by simp [hfl])
    rw [← h.1] at this
    exact absurd this (by decide)
  | nil =>
    rw [hfl, List.nil_append] at h
    have hh : (d.width.text ++ (precText d.prec ++ (d.conv :: (dateText d.date ++ r')))).head?
        = some 37 := by rw [← h]; rfl
    rcases head_width hd.width _ hh with ⟨h7, h8⟩ | h7 | h7
    · rw [head_prec] at h8
      by_cases hp : d.prec = .absent
      · rw [if_pos hp] at h8
        exact hd.notPercent (Option.some.inj h8) ⟨hfl, h7, hp⟩
      · rw [if_neg hp] at h8
        simp at h8
    · omega
    · unfold IsDigit at h7; omega

theorem reading_unique {env : DateSyntax} {s : JStr} {ps qs : List Piece}
    (h : Reading env s ps) (h' : Reading env s qs) : ps = qs := by
  have lit_head : ∀ {s l : JStr} {ps : List Piece}, Reading env s (.lit l :: ps) →
      ∃ c, s.head? = some c ∧ c ≠ 37 := by
    intro s l ps h
    obtain ⟨rest, rfl, h2, h3, _⟩ := reading_lit.1 h
    cases l with
    | nil => exact absurd rfl h2
    | cons c l =>
      refine ⟨c, rfl, ?_⟩
      rintro rfl
      exact h3 (by simp)
  have other_head : ∀ {s : JStr} {p : Piece} {ps : List Piece}, (∀ l, p ≠ .lit l) →
      Reading env s (p :: ps) → s.head? = some 37 := by
    intro s p ps hp h
    obtain ⟨rest, rfl, _⟩ := (reading_cons hp).1 h
    exact text_head hp rest
  have clash : ∀ {s l : JStr} {p : Piece} {ps qs : List Piece}, (∀ l, p ≠ .lit l) →
      Reading env s (p :: ps) → Reading env s (.lit l :: qs) → False := by
    intro s l p ps qs hp h1 h2
    obtain ⟨c, h3, h4⟩ := lit_head h2
    rw [other_head hp h1] at h3
    exact h4 (Option.some.inj h3).symm
  induction ps generalizing s qs with
  | nil => rw [reading_nil.1 h] at h'; exact (reading_of_nil.1 h').symm
  | cons p ps ih =>
    cases qs with
    | nil => rw [reading_nil.1 h'] at h; exact reading_of_nil.1 h
    | cons q qs =>
      cases p with
      | lit l =>
        cases q with
        | lit l' =>
          obtain ⟨r, rfl, k2, k3, k4, k5⟩ := reading_lit.1 h
          obtain ⟨r', e1, g2, g3, g4, g5⟩ := reading_lit.1 h'
          obtain ⟨rfl, rfl⟩ := split_unique (P := (· ≠ 37))
            (by rintro c hc rfl; exact k3 hc) (by rintro c hc rfl; exact g3 hc)
            (fun c hc hn => hn (k4 c hc)) (fun c hc hn => hn (g4 c hc)) e1
          rw [ih k5 g5]
        | percent => exact (clash (by simp) h' h).elim
        | dir d => exact (clash (by simp) h' h).elim
      | percent =>
        cases q with
        | lit l' => exact (clash (by simp) h h').elim
        | percent =>
          obtain ⟨r, rfl, _, _, k5⟩ := (reading_cons (by simp)).1 h
          obtain ⟨r', e1, _, _, g5⟩ := (reading_cons (by simp)).1 h'
          simp only [Piece.text, List.cons_append, List.nil_append, List.cons.injEq, true_and] at e1
          subst e1
          rw [ih k5 g5]
        | dir d =>
          obtain ⟨r, rfl, _, _, k5⟩ := (reading_cons (by simp)).1 h
          obtain ⟨r', e1, g2, _, g5⟩ := (reading_cons (by simp)).1 h'
          exact absurd e1 (percent_ne_dir g2)
      | dir d =>
        cases q with
        | lit l' => exact (clash (by simp) h h').elim
        | percent =>
          obtain ⟨r, rfl, g2, _, k5⟩ := (reading_cons (by simp)).1 h
          obtain ⟨r', e1, _, _, g5⟩ := (reading_cons (by simp)).1 h'
          exact absurd e1.symm (percent_ne_dir g2)
        | dir d' =>
          obtain ⟨r, rfl, k2, k3, k5⟩ := (reading_cons (by simp)).1 h
          obtain ⟨r', e1, g2, g3, g5⟩ := (reading_cons (by simp)).1 h'
          obtain ⟨rfl, rfl⟩ := directive_unique k2 g2 k3 g3 e1
          rw [ih k5 g5]

theorem separated_reflag (qs : List Piece) (d : Directive) (fl : JStr) (ps : List Piece)
    (hne : ∀ p ∈ ps, p.text ≠ []) (h : Separated (ps ++ .dir d :: qs)) :
    Separated (ps ++ .dir { d with flags := fl } :: qs) := by
  induction ps with
  | nil => exact h
  | cons p ps ih =>
    rw [List.cons_append] at h ⊢
    obtain ⟨h1, h2⟩ := h
    refine ⟨?_, ih (fun q hq => hne q (by simp [hq])) h2⟩
    cases p with
    | lit l =>
      intro t ht
      cases ps with
      | nil => simp at ht
      | cons q ps => exact h1 t (by simpa using ht)
    | percent => trivial
    | dir d' =>
      intro a b
      have := h1 a b
      cases ps with
      | nil => simp [Piece.text, Directive.text]
      | cons q ps =>
        have hq : q.text ≠ [] := hne q (by simp)
        simp only [List.cons_append, List.flatMap_cons] at this ⊢
        rw [head?_append_ne hq] at this ⊢
        exact this

/-! ### Gluing -/

/-- Two readings side by side; literal runs that meet become one. -/
def glue : List Piece → List Piece → List Piece
  | [], qs => qs
  | [.lit s], .lit t :: qs => .lit (s ++ t) :: qs
  | p :: ps, qs => p :: glue ps qs

theorem glue_cons_ne_lit {p : Piece} (hp : ∀ l, p ≠ .lit l) (ps qs : List Piece) :
    glue (p :: ps) qs = p :: glue ps qs := by
  cases p with
  | lit l => exact absurd rfl (hp l)
  | percent => simp [glue]
  | dir d => simp [glue]

/-- The text `a` ends with a bare date directive that a following `{` would extend. -/
def EndsWithBareDate (ps : List Piece) : Prop :=
  ∃ d, ps.getLast? = some (.dir d) ∧ IsDateConv d.conv ∧ d.date = none

theorem reading_glue {env : DateSyntax} {a b : JStr} {ps qs : List Piece}
    (h : Reading env a ps) (h' : Reading env b qs)
    (hb : EndsWithBareDate ps → b.head? ≠ some 123) : Reading env (a ++ b) (glue ps qs) := by
  induction ps generalizing a with
  | nil => rw [reading_nil.1 h]; exact h'
  | cons p ps ih =>
    have tail : ps ≠ [] → (EndsWithBareDate ps → b.head? ≠ some 123) := by
      rintro hne ⟨d, h1, h2⟩
      refine hb ⟨d, ?_, h2⟩
      cases ps with
      | nil => exact absurd rfl hne
      | cons q ps => simpa using h1
    by_cases hp : ∀ l, p ≠ .lit l
    · obtain ⟨r, rfl, k2, k3, k5⟩ := (reading_cons hp).1 h
      rw [glue_cons_ne_lit hp, reading_cons hp]
      refine ⟨r ++ b, by simp, k2, ?_, ?_⟩
      · intro d hd h1 h2
        by_cases hps : ps = []
        · subst hps
          have := k5.text
          simp at this
          subst this
          exact hb ⟨d, by simp [hd], h1, h2⟩
        · have hr : r ≠ [] := by
            rintro rfl; exact hps (reading_of_nil.1 k5)
          rw [head?_append_ne hr]
          exact k3 d hd h1 h2
      · by_cases hps : ps = []
        · subst hps
          have := k5.text
          simp at this
          subst this
          exact h'
        · exact ih k5 (tail hps)
    · simp only [ne_eq, not_forall, not_not] at hp
      obtain ⟨l, rfl⟩ := hp
      obtain ⟨r, rfl, k2, k3, k4, k5⟩ := reading_lit.1 h
      cases ps with
      | nil =>
        have := k5.text
        simp at this
        subst this
        have h0 : ∀ q qs', qs = q :: qs' → (∀ l, q ≠ .lit l) →
            Reading env (l ++ [] ++ b) (.lit l :: qs) := by
          rintro q qs' rfl hq
          rw [reading_lit]
          refine ⟨b, by simp, k2, k3, ?_, h'⟩
          intro c hc
          obtain ⟨r, rfl, _⟩ := (reading_cons hq).1 h'
          rw [text_head hq] at hc
          exact (Option.some.inj hc).symm
        cases qs with
        | nil =>
          have hb0 := reading_nil.1 h'
          subst hb0
          simpa [glue] using h
        | cons q qs =>
          cases q with
          | lit t =>
            obtain ⟨r, rfl, g2, g3, g4, g5⟩ := reading_lit.1 h'
            simp only [glue]
            rw [reading_lit]
            refine ⟨r, by simp, by simp [k2], ?_, g4, g5⟩
            simp [k3, g3]
          | percent => simpa [glue] using h0 _ _ rfl (by simp)
          | dir d => simpa [glue] using h0 _ _ rfl (by simp)
      | cons p ps =>
        have hr : r ≠ [] := by
          rintro rfl; exact absurd (reading_of_nil.1 k5) (by simp)
        have hg : glue (.lit l :: p :: ps) qs = .lit l :: glue (p :: ps) qs := by
          cases qs with
          | nil => simp [glue]
          | cons q qs => cases q <;> simp [glue]
        rw [hg, reading_lit]
        refine ⟨r ++ b, by simp, k2, k3, ?_, ih k5 (tail (by simp))⟩
        rw [head?_append_ne hr]
        exact k4

end FastPrintf
