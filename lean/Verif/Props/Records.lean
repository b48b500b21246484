/-
Property C92: the values in the columns of a line can be read back.
-/
import Verif.Spec.Records
import Verif.Props.Alphabet
import Verif.Props.OrderMore
import Verif.Props.Width
import Verif.Props.GiveBack

namespace FastPrintf
open Spec DefaultAppender

theorem alphabets_numberChars : ∀ p ∈ alphabets, ∀ c ∈ p.2, c ∈ numberChars := by decide

theorem alphabet_numberChars {k c : JChar} (h : c ∈ alphabet k) : c ∈ numberChars := by
  unfold alphabet at h
  cases hl : alphabets.lookup k with
  | none => rw [hl] at h; cases h
  | some a =>
    rw [hl] at h
    exact alphabets_numberChars _ (lookup_mem hl) _ h

theorem dropWhile_replicate (n : Nat) {s : JStr} (h : s.head? ≠ some 32) :
    (List.replicate n 32 ++ s).dropWhile (· == 32) = s := by
  induction n with
  | zero =>
    cases s with
    | nil => rfl
    | cons a s =>
      have : a ≠ 32 := by simpa using h
      simp [this]
  | succ n ih => simpa [List.replicate_succ] using ih

theorem stripped_padded (left : Bool) (w : Nat) (s : JStr)
    (h : if left then s.getLast? ≠ some 32 else s.head? ≠ some 32) : stripped left (padded left w s) = s := by
  cases left with
  | false =>
    simp only [Bool.false_eq_true, if_false] at h
    simp only [stripped, padded, Bool.false_eq_true, if_false]
    exact dropWhile_replicate _ h
  | true =>
    simp only [if_true] at h
    simp only [stripped, padded, if_true, List.reverse_append, List.reverse_replicate]
    rw [dropWhile_replicate _ (by simpa using h), List.reverse_reverse]

/-- A column prints a text that its value can be read from, and that has no characters but those of numbers and
those of the value. -/
theorem cell_reads {dates : DateSyntax} {env : DateEnv} {jdk : JdkEnv} (hj : InstantsFit jdk) {d : Directive}
    (h : d.Ok dates) (hp : d.Plain) {e : Entry} (he : Covered e) {v : Field} (hv : Cell jdk d e v) :
    ∃ t, printf dates env d.text [e.toTraits jdk] = .ok t ∧ v.ReadFrom d t ∧
      ∀ c, c ∉ numberChars → v.Lacks c → c ∉ t := by
  have plain : ∀ t, printf dates env d.text [e.toTraits jdk] = .ok t → d.conv ∉ js! "scptST" →
      ∀ c, c ∉ numberChars → c ∉ t := by
    intro t ht hc c hn hm
    rcases C80_directive dates env jdk hj d h hp e he t ht c hm with rfl | h1 | ⟨s, h1, -⟩
    · exact hn (by decide)
    · exact hn (alphabet_numberChars h1)
    · exact hc (quotes_conv h1)
  cases hv with
  | int hc h0 hx =>
    obtain ⟨t, h1, h2, -⟩ := C13_d_reads_back dates env jdk d h hp hc _ _ hx []
    refine ⟨t, h1, h2 (fun h => h0 h.2), fun c hn _ => plain t h1 ?_ c hn⟩
    rcases hc with hc | hc <;> rw [hc] <;> decide
  | nat k hc h0 hx hn =>
    obtain ⟨⟨t, h1, h2⟩, -⟩ := C14_unsigned_reads_back dates env jdk d h hp k hc _ _ hx _ hn []
    refine ⟨t, h1, ?_, fun c hn _ => plain t h1 ?_ c hn⟩
    · intro k' hk
      have : k = k' := by
        rw [hc] at hk
        revert hk; cases k <;> cases k' <;> decide
      subst this
      exact h2 (fun h => h0 h.2)
    · rw [hc]; cases k <;> decide
  | double hd hf he =>
    obtain ⟨t, h1, h2⟩ := C59_reads_back dates env jdk d h hp hd _ hf _ he
    refine ⟨t, h1, h2, fun c hn _ => plain t h1 ?_ c hn⟩
    rcases hd with ⟨hc | hc, -⟩ | ⟨hc | hc, -⟩ | ⟨hc | hc, -⟩ | ⟨hc | hc, -⟩ <;> rw [hc] <;> decide
  | @text s hc h0 hs hb =>
    have h1 := C54_s dates env jdk d h hp hc e (.ok s) hs []
    replace h1 : printf dates env d.text [e.toTraits jdk] = .ok (padded (ch! '-' ∈ d.flags) d.width.width s) := by
      rw [h1]
      simp only [Except.map, Directive.padded, cut]
      cases hq : d.prec.precision with
      | none => rfl
      | some p => simp only [List.take_of_length_le (h0 p hq)]
    refine ⟨_, h1, stripped_padded _ _ _ (by simpa using hb), ?_⟩
    intro c hn hl hm
    rcases mem_padded hm with rfl | hm
    · exact hn (by decide)
    · exact hl hm
  | @char x hc hr =>
    have h1 := C56_directive dates env jdk d h hp e he _ (.char hc hr)
    refine ⟨_, h1, ?_, ?_⟩
    · unfold Field.ReadFrom Directive.padded padded
      by_cases hm : ch! '-' ∈ d.flags <;> simp [hm]
    · intro c hn hl hm
      rcases mem_padded hm with rfl | hm
      · exact hn (by decide)
      · exact hl (List.mem_singleton.1 hm).symm

/-- A text of a column is that of one value at most. -/
theorem cell_unique {jdk : JdkEnv} {d : Directive} {e e' : Entry} {v v' : Field} (h : Cell jdk d e v)
    (h' : Cell jdk d e' v') {t : JStr} (ht : v.ReadFrom d t) (ht' : v'.ReadFrom d t) : v = v' := by
  have kinds : ∀ {e : Entry} {v : Field}, Cell jdk d e v →
      match v with
      | .int _ => d.conv ∈ js! "di"
      | .nat _ => d.conv ∈ js! "uox"
      | .double b => finite b ∧ d.conv ∈ js! "eEgGfFaA"
      | .text _ => d.conv ∈ js! "s"
      | .char _ => d.conv ∈ js! "c" := by
    intro e v h
    cases h with
    | int hc _ _ => rcases hc with hc | hc <;> simp [hc]
    | nat k hc _ _ _ => cases k <;> simp [hc, UConv.char]
    | double hd hf _ =>
      refine ⟨hf, ?_⟩
      rcases hd with ⟨hc | hc, -⟩ | ⟨hc | hc, -⟩ | ⟨hc | hc, -⟩ | ⟨hc | hc, -⟩ <;> rw [hc] <;> decide
    | text hc _ _ _ => simp [hc]
    | char hc _ => simp [hc]
  have apart : ∀ {a b : JStr}, d.conv ∈ a → d.conv ∈ b → (∀ c ∈ a, c ∉ b) → False := fun h1 h2 h3 => h3 _ h1 h2
  have k := kinds h
  have k' := kinds h'
  cases h with
  | int hc hp hx =>
    cases h' <;> dsimp only at k k' <;> try exact (apart k k' (by decide)).elim
    · exact congrArg _ (ht.symm.trans ht')
    · exact (apart k k'.2 (by decide)).elim
  | nat c hc hp hx hn =>
    cases h' <;> dsimp only at k k' <;> try exact (apart k k' (by decide)).elim
    · exact congrArg _ ((ht c hc).symm.trans (ht' c hc))
    · exact (apart k k'.2 (by decide)).elim
  | double hd hf hx =>
    cases h' <;> dsimp only at k k' <;> try exact (apart k.2 k' (by decide)).elim
    exact congrArg _ (C59_determined k.1 k'.1 ht ht')
  | text hc hp hx hb =>
    cases h' <;> dsimp only at k k' <;> try exact (apart k k' (by decide)).elim
    · exact (apart k k'.2 (by decide)).elim
    · exact congrArg _ (ht.symm.trans ht')
  | char hc hr =>
    cases h' <;> dsimp only at k k' <;> try exact (apart k k' (by decide)).elim
    · exact (apart k k'.2 (by decide)).elim
    · exact congrArg _ (Option.some.inj (ht.symm.trans ht'))

/-- The values of a line, read column by column. -/
def Spec.ReadAll (ds : List Directive) (vs : List Field) (ts : List JStr) : Prop :=
  List.Forall₂ (fun (p : Directive × Field) t => p.2.ReadFrom p.1 t) (ds.zip vs) ts

theorem arity_plain {d : Directive} (h : d.Plain) : arity [.dir d] = 1 := by
  simp [arity, Piece.arity, h.width, h.prec]

theorem record_columns {dates : DateSyntax} {env : DateEnv} {jdk : JdkEnv} (hj : InstantsFit jdk)
    {ds : List Directive} {es : List Entry} {vs : List Field} (h : Record jdk ds es vs) :
    (∀ d ∈ ds, d.Ok dates ∧ d.Plain) → (∀ e ∈ es, Covered e) →
    ∃ ts, Columns dates env jdk (dirColumns ds) es ts ∧ ReadAll ds vs ts ∧ ts.length = ds.length ∧
      (∀ c, c ∉ numberChars → (∀ v ∈ vs, v.Lacks c) → ∀ t ∈ ts, c ∉ t) ∧
      List.Forall₂ (fun (p : Directive × Entry) t => printf dates env p.1.text [p.2.toTraits jdk] = .ok t)
        (ds.zip es) ts := by
  induction h with
  | nil es => intro _ _; exact ⟨[], .done es, .nil, rfl, by simp, .nil⟩
  | @cons d e v ds es vs hc _ ih =>
    intro hd he
    obtain ⟨d1, d2⟩ := hd d (List.mem_cons_self ..)
    obtain ⟨ts, i1, i2, i3, i4, i5⟩ := ih (fun d hm => hd d (List.mem_cons_of_mem _ hm))
      (fun e hm => he e (List.mem_cons_of_mem _ hm))
    obtain ⟨t, k1, k2, k3⟩ := cell_reads (env := env) hj d1 d2 (he e (List.mem_cons_self ..)) hc
    refine ⟨t :: ts, .more ?_ ?_, .cons k2 i2, by simp [i3], ?_, .cons k1 i5⟩
    · rw [List.map_cons, printf_alone d1 d2, k1]
    · rw [arity_plain d2]; exact i1
    · intro c hn hl u hu
      rcases List.mem_cons.1 hu with rfl | hu
      · exact k3 c hn (hl v (List.mem_cons_self ..))
      · exact i4 c hn (fun v hm => hl v (List.mem_cons_of_mem _ hm)) u hu

theorem readAll_unique {jdk : JdkEnv} {ds : List Directive} {es es' : List Entry} {vs vs' : List Field}
    (h : Record jdk ds es vs) : Record jdk ds es' vs' → ∀ {ts : List JStr}, ReadAll ds vs ts → ReadAll ds vs' ts →
    vs = vs' := by
  induction h generalizing es' vs' with
  | nil es => intro h'; cases h'; intros; rfl
  | cons hc _ ih =>
    intro h' ts k k'
    cases h' with
    | cons hc' hs' =>
      cases k with
      | cons k1 k2 =>
        cases k' with
        | cons k1' k2' => rw [cell_unique hc hc' k1 k1', ih hs' k2 k2']

/-! ### Lines with a separator -/

/-- **C92.** A line of columns with a separator that numbers are not made of and that is in none of the texts: the
call succeeds, and splitting the line at the separator gives a text for each column from which its value is read. -/
theorem C92_line (dates : DateSyntax) (env : DateEnv) (jdk : JdkEnv) (hj : InstantsFit jdk) (c : JChar)
    (hc : c ∉ numberChars) (ds : List Directive) (hn : ds ≠ []) (hd : ∀ d ∈ ds, d.Ok dates ∧ d.Plain)
    (es : List Entry) (he : ∀ e ∈ es, Covered e) (vs : List Field) (hv : Record jdk ds es vs)
    (hl : ∀ v ∈ vs, v.Lacks c) :
    ∃ out, printf dates env ([c].intercalate (ds.map (·.text))) (es.map (·.toTraits jdk)) = .ok out ∧
      ReadAll ds vs (out.splitOn c) := by
  obtain ⟨ts, k1, k2, k3, k4, -⟩ := record_columns (env := env) hj hv hd he
  have hm : (dirColumns ds).map (·.1) = ds.map (·.text) := by simp [dirColumns]
  refine ⟨[c].intercalate ts, ?_, ?_⟩
  · rw [← hm]
    refine (C80_join dates env jdk c ?_ ?_ _ ?_ es _).2 ⟨ts, k1, rfl⟩
    · rintro rfl; exact hc (by decide)
    · rintro rfl; exact hc (by decide)
    · intro p hp
      obtain ⟨d, hd', rfl⟩ := List.mem_map.1 hp
      exact reading_dir (hd d hd').1
  · rw [List.splitOn_intercalate c (k4 c hc hl)
      (by rintro rfl; exact hn (List.length_eq_zero_iff.1 k3.symm))]
    exact k2

/-- **C92 (the line determines the values).** -/
theorem C92_determined (dates : DateSyntax) (env : DateEnv) (jdk : JdkEnv) (hj : InstantsFit jdk) (c : JChar)
    (hc : c ∉ numberChars) (ds : List Directive) (hd : ∀ d ∈ ds, d.Ok dates ∧ d.Plain)
    (es es' : List Entry) (he : ∀ e ∈ es, Covered e) (he' : ∀ e ∈ es', Covered e) (vs vs' : List Field)
    (hv : Record jdk ds es vs) (hv' : Record jdk ds es' vs') (hl : ∀ v ∈ vs, v.Lacks c) (hl' : ∀ v ∈ vs', v.Lacks c)
    (h : printf dates env ([c].intercalate (ds.map (·.text))) (es.map (·.toTraits jdk)) =
      printf dates env ([c].intercalate (ds.map (·.text))) (es'.map (·.toTraits jdk))) : vs = vs' := by
  by_cases hn : ds = []
  · subst hn; cases hv; cases hv'; rfl
  · obtain ⟨o, k1, k2⟩ := C92_line dates env jdk hj c hc ds hn hd es he vs hv hl
    obtain ⟨o', k1', k2'⟩ := C92_line dates env jdk hj c hc ds hn hd es' he' vs' hv' hl'
    rw [k1, k1'] at h
    cases h
    exact readAll_unique hv hv' k2 k2'

/-! ### Columns of fixed width -/

/-- Directives without a separator print one after the other. -/
theorem C92_concat (dates : DateSyntax) (env : DateEnv) (jdk : JdkEnv) (ds : List Directive)
    (hd : ∀ d ∈ ds, d.Ok dates) (es : List Entry) (out : JStr) :
    printf dates env (ds.map (·.text)).flatten (es.map (·.toTraits jdk)) = .ok out ↔
      ∃ ts, Columns dates env jdk (dirColumns ds) es ts ∧ out = ts.flatten := by
  suffices h : ∃ cs, Compiler.compile dates (ds.map (·.text)).flatten = .ok cs ∧ ∀ es out,
      (∃ rest, runSB env cs (es.map (·.toTraits jdk)) [] = ⟨out, .ok rest⟩) ↔
        ∃ ts, Columns dates env jdk (dirColumns ds) es ts ∧ out = ts.flatten by
    obtain ⟨cs, hcs, h⟩ := h
    rw [printf_run hcs, h]
  clear es out
  induction ds with
  | nil =>
    refine ⟨[], (compile_iff dates _ _).2 ⟨[], reading_nil.2 rfl, rfl⟩, fun es out => ?_⟩
    constructor
    · rintro ⟨rest, h⟩; cases h; exact ⟨[], .done es, rfl⟩
    · rintro ⟨ts, h, rfl⟩; cases h; exact ⟨_, rfl⟩
  | cons d ds ih =>
    have hrf := reading_dir (hd d (List.mem_cons_self ..))
    have hf : Compiler.compile dates d.text = .ok [(Piece.dir d).compiled] := (compile_iff dates _ _).2 ⟨_, hrf, rfl⟩
    obtain ⟨cs, hcs, hrun⟩ := ih (fun d hm => hd d (List.mem_cons_of_mem _ hm))
    obtain ⟨as, has, ha⟩ := C05_compositional dates env d.text (ds.map (·.text)).flatten _ cs hf hcs (by
      intro ps _ _
      cases ds with
      | nil => simp
      | cons q ds => simp [Directive.text])
    refine ⟨as, by simpa using has, fun es out => ?_⟩
    rw [ha]
    constructor
    · rintro ⟨rest, h⟩
      rcases hx : runSB env [(Piece.dir d).compiled] (es.map (·.toTraits jdk)) [] with ⟨sb, r⟩
      rw [hx] at h
      cases r with
      | error e => cases h
      | ok mid =>
        dsimp only at h
        have hmid := (C06_consumption_fixed dates env d.text _ hrf _ hf _ _ _ _ hx).2
        rw [runSB_prefix] at h
        rw [hmid, ← List.map_drop] at h
        obtain ⟨e1, e2⟩ := Outcome.mk.inj h
        obtain ⟨ts, k1, k2⟩ := (hrun (es.drop (arity [.dir d])) _).1 ⟨rest, by rw [← e2]⟩
        exact ⟨sb :: ts, .more ((printf_run hf).2 ⟨_, hx⟩) k1, by rw [← e1, k2, List.flatten_cons]⟩
    · rintro ⟨ts, h, rfl⟩
      cases h with
      | more k k' =>
        rename_i t ts
        obtain ⟨mid, hx⟩ := (printf_run hf).1 k
        rw [hx]
        dsimp only
        have hmid := (C06_consumption_fixed dates env d.text _ hrf _ hf _ _ _ _ hx).2
        obtain ⟨rest, hy⟩ := (hrun _ _).2 ⟨ts, k', rfl⟩
        refine ⟨rest, ?_⟩
        rw [runSB_prefix, hmid, ← List.map_drop, hy, List.flatten_cons]

theorem chop_flatten : ∀ {ns : List Nat} {ts : List JStr}, List.Forall₂ (fun n (t : JStr) => t.length = n) ns ts →
    chop ns ts.flatten = ts ∧ ts.flatten.length = ns.sum := by
  intro ns ts h
  induction h with
  | nil => exact ⟨rfl, rfl⟩
  | cons h _ ih =>
    subst h
    refine ⟨?_, by simp [ih.2]⟩
    rw [List.flatten_cons, chop, List.take_left, List.drop_left, ih.1]

/-- Without its width the directive prints, for the argument, at most as many characters as the width. -/
def Spec.Fits (dates : DateSyntax) (env : DateEnv) (jdk : JdkEnv) (p : Directive × Entry) : Prop :=
  ∀ t, printf dates env p.1.unpadded.text [p.2.toTraits jdk] = .ok t → t.length ≤ p.1.width.width

theorem cell_width {dates : DateSyntax} {env : DateEnv} {jdk : JdkEnv} {d : Directive} (h : d.Ok dates) (hp : d.Plain)
    {e : Entry} (he : Covered e) {v : Field} (hv : Cell jdk d e v) (hf : Fits dates env jdk (d, e)) {t : JStr}
    (ht : printf dates env d.text [e.toTraits jdk] = .ok t) : t.length = d.width.width := by
  have hc : d.conv ∈ js! "diuoxeEgGfFaAsc" := by
    cases hv with
    | int hc _ _ => rcases hc with hc | hc <;> simp [hc]
    | nat k hc _ _ _ => cases k <;> simp [hc, UConv.char]
    | double hd hf _ =>
      rcases hd with ⟨hc | hc, -⟩ | ⟨hc | hc, -⟩ | ⟨hc | hc, -⟩ | ⟨hc | hc, -⟩ <;> rw [hc] <;> decide
    | text hc _ _ _ => simp [hc]
    | char hc _ => simp [hc]
  have hx : Exact d e := by
    refine ⟨fun h => ?_, fun h => ?_⟩
    · cases hv with
      | int hc _ _ => rcases hc with hc | hc <;> rw [hc] at h <;> exact absurd h (by decide)
      | nat k hc _ _ _ => rw [hc] at h; cases k <;> exact absurd h (by decide)
      | double hd hf _ =>
        rcases hd with ⟨hc | hc, -⟩ | ⟨hc | hc, -⟩ | ⟨hc | hc, -⟩ | ⟨hc | hc, -⟩ <;> rw [hc] at h <;> exact absurd h (by decide)
      | text hc _ hs _ =>
        refine .inr ⟨?_, ?_⟩ <;> intros <;> rintro rfl
        all_goals
          cases hs with
          | shows hs =>
            cases hs with
            | number hx _ _ _ => cases hx
            | bool hx => cases hx
            | char hx => cases hx
          | float hx => cases hx
          | double hx => cases hx
      | char hc _ => rw [hc] at h; exact absurd h (by decide)
    · cases hv with
      | int hc _ _ => rcases hc with hc | hc <;> rw [hc] at h <;> exact absurd h (by decide)
      | nat k hc _ _ _ => rw [hc] at h; cases k <;> exact absurd h (by decide)
      | double hd hf hi => refine .inr ⟨?_, ?_, ?_⟩ <;> intros <;> rintro rfl <;> cases hi
      | text hc _ _ _ => rw [hc] at h; exact absurd h (by decide)
      | char hc _ => rw [hc] at h; exact absurd h (by decide)
  have k := C16_width_is_minimum dates env jdk d h hp (by rintro h; rw [h] at hc; revert hc; decide)
    (by rintro h; rw [h] at hc; revert hc; decide) e he.behaved hx []
  rw [ht] at k
  cases hu : printf dates env d.unpadded.text [e.toTraits jdk] with
  | error x => rw [hu] at k; cases k
  | ok u =>
    rw [hu] at k
    have h1 : t.length = max d.width.width u.length := Except.ok.inj k
    have h2 : u.length ≤ d.width.width := hf u hu
    omega

/-- **C92 (fixed width).** Directives without anything between them, each with a width that the text for its argument
does not exceed: the line has as many characters as the widths together, and cutting it at the widths gives a text for
each column from which its value is read. -/
theorem C92_fixed (dates : DateSyntax) (env : DateEnv) (jdk : JdkEnv) (hj : InstantsFit jdk) (ds : List Directive)
    (hd : ∀ d ∈ ds, d.Ok dates ∧ d.Plain) (es : List Entry) (he : ∀ e ∈ es, Covered e) (vs : List Field)
    (hv : Record jdk ds es vs) (hf : ∀ p ∈ ds.zip es, Fits dates env jdk p) :
    ∃ out, printf dates env (ds.map (·.text)).flatten (es.map (·.toTraits jdk)) = .ok out ∧
      out.length = (ds.map (·.width.width)).sum ∧ ReadAll ds vs (chop (ds.map (·.width.width)) out) := by
  obtain ⟨ts, k1, k2, -, -, k5⟩ := record_columns (env := env) hj hv hd he
  have hw : List.Forall₂ (fun n (t : JStr) => t.length = n) (ds.map (·.width.width)) ts := by
    clear k1 k2
    induction hv generalizing ts with
    | nil es => cases k5; exact .nil
    | @cons d e v ds es vs hc _ ih =>
      cases k5 with
      | cons k1 k2 =>
        obtain ⟨d1, d2⟩ := hd d (List.mem_cons_self ..)
        exact .cons (cell_width d1 d2 (he e (List.mem_cons_self ..)) hc (hf _ (List.mem_cons_self ..)) k1)
          (ih (fun d hm => hd d (List.mem_cons_of_mem _ hm)) (fun e hm => he e (List.mem_cons_of_mem _ hm))
            (fun p hm => hf p (List.mem_cons_of_mem _ hm)) _ k2)
  obtain ⟨h1, h2⟩ := chop_flatten hw
  exact ⟨ts.flatten, (C92_concat dates env jdk ds (fun d hm => (hd d hm).1) es _).2 ⟨ts, k1, rfl⟩, h2, by rw [h1]; exact k2⟩

/-- **C92 (the fixed-width line determines the values).** -/
theorem C92_fixed_determined (dates : DateSyntax) (env : DateEnv) (jdk : JdkEnv) (hj : InstantsFit jdk)
    (ds : List Directive) (hd : ∀ d ∈ ds, d.Ok dates ∧ d.Plain) (es es' : List Entry) (he : ∀ e ∈ es, Covered e)
    (he' : ∀ e ∈ es', Covered e) (vs vs' : List Field) (hv : Record jdk ds es vs) (hv' : Record jdk ds es' vs')
    (hf : ∀ p ∈ ds.zip es, Fits dates env jdk p) (hf' : ∀ p ∈ ds.zip es', Fits dates env jdk p)
    (h : printf dates env (ds.map (·.text)).flatten (es.map (·.toTraits jdk)) =
      printf dates env (ds.map (·.text)).flatten (es'.map (·.toTraits jdk))) : vs = vs' := by
  obtain ⟨o, k1, -, k2⟩ := C92_fixed dates env jdk hj ds hd es he vs hv hf
  obtain ⟨o', k1', -, k2'⟩ := C92_fixed dates env jdk hj ds hd es' he' vs' hv' hf'
  rw [k1, k1'] at h
  cases h
  exact readAll_unique hv hv' k2 k2'

/-! ### Examples -/

-- an integer, a double with 17 digits, a padded text and a character, separated by a tab
def recordDirs : List Directive :=
  [⟨js! "+", .digits (js! "6"), .absent, ch! 'd', none⟩, ⟨[], .absent, .digits (js! "17"), ch! 'g', none⟩,
    ⟨js! "-", .digits (js! "5"), .absent, ch! 's', none⟩, ⟨[], .absent, .absent, ch! 'c', none⟩]

example : [ch! '\t'].intercalate (recordDirs.map (·.text)) = js! "%+6d\t%.17g\t%-5s\t%c" := by decide

theorem recordDirs_ok : ∀ d ∈ recordDirs, d.Ok sampleDates ∧ d.Plain := by
  intro d hd
  simp only [recordDirs, List.mem_cons, List.not_mem_nil, or_false] at hd
  rcases hd with rfl | rfl | rfl | rfl
  · exact ⟨⟨by decide, by decide, ⟨by simp, by simp, by simp [IsDigit], by decide⟩, trivial, by decide,
      by intro p hp; exact absurd hp (by simp), by intro hc; exact absurd hc (by decide)⟩, by simp, by simp⟩
  · exact ⟨⟨by decide, by decide, trivial, ⟨by simp [IsDigit], by decide⟩, by decide,
      by intro p hp; exact absurd hp (by simp), by intro hc; exact absurd hc (by decide)⟩, by simp, by simp⟩
  · exact ⟨⟨by decide, by decide, ⟨by simp, by simp, by simp [IsDigit], by decide⟩, trivial, by decide,
      by intro p hp; exact absurd hp (by simp), by intro hc; exact absurd hc (by decide)⟩, by simp, by simp⟩
  · exact ⟨⟨by decide, by decide, trivial, trivial, by decide,
      by intro p hp; exact absurd hp (by simp), by intro hc; exact absurd hc (by decide)⟩, by simp, by simp⟩

theorem sample_record (a : BitVec 32) (b : BitVec 64) (hb : finite b) (s : JStr) (hs : s.getLast? ≠ some (ch! ' '))
    (x : JChar) (z : JStr) :
    Record sampleJdk recordDirs [.prim (.int a), .prim (.double b), .ref (.string s someId), .ref (.string (x :: z) someId)]
      [.int a.toInt, .double b, .text s, .char x] := by
  refine .cons ?_ (.cons ?_ (.cons ?_ (.cons ?_ (.nil _))))
  · exact .int (x := .int a) (.inl rfl) (by simp [Num.precision]) (.prim rfl)
  · exact .double (.inr (.inl ⟨.inl rfl, by decide⟩)) hb (.prim b)
  · exact .text rfl (by simp [Num.precision]) (.shows (.string s someId)) (by simpa using hs)
  · exact .char rfl (.text (.string (x :: z) someId))

def fourArgs (a : BitVec 32) (b : BitVec 64) (s z : JStr) : List Traits :=
  [Entry.prim (.int a), .prim (.double b), .ref (.string s someId), .ref (.string z someId)].map (·.toTraits sampleJdk)

-- the line determines the four values, whatever they are
example (a a' : BitVec 32) (b b' : BitVec 64) (hb : finite b) (hb' : finite b') (s s' : JStr)
    (hs : s.getLast? ≠ some (ch! ' ')) (hs' : s'.getLast? ≠ some (ch! ' ')) (ht : ch! '\t' ∉ s) (ht' : ch! '\t' ∉ s')
    (x x' : JChar) (hx : x ≠ ch! '\t') (hx' : x' ≠ ch! '\t')
    (h : printf sampleDates sampleDateEnv (js! "%+6d\t%.17g\t%-5s\t%c")
        (fourArgs a b s [x]) =
      printf sampleDates sampleDateEnv (js! "%+6d\t%.17g\t%-5s\t%c")
        (fourArgs a' b' s' [x'])) : a.toInt = a'.toInt ∧ b = b' ∧ s = s' ∧ x = x' := by
  have cov : ∀ (a : BitVec 32) (b : BitVec 64) (s z : JStr), ∀ e ∈ [Entry.prim (.int a), .prim (.double b),
      .ref (.string s someId), .ref (.string z someId)], Covered e := by
    intro a b s z e he
    simp only [List.mem_cons, List.not_mem_nil, or_false] at he
    rcases he with rfl | rfl | rfl | rfl
    · exact .prim (by simp)
    · exact .prim (by simp)
    · exact .string ..
    · exact .string ..
  have := C92_determined sampleDates sampleDateEnv sampleJdk sample_fits (ch! '\t') (by decide) recordDirs recordDirs_ok
    _ _ (cov a b s [x]) (cov a' b' s' [x']) _ _ (sample_record a b hb s hs x []) (sample_record a' b' hb' s' hs' x' [])
    (by simp [Field.Lacks, ht, hx]) (by simp [Field.Lacks, ht', hx']) h
  simpa using this

-- columns of fixed width without anything between them
example : printf sampleDates sampleDateEnv (js! "%06d%4x%-5s") [intArg (-42), intArg 255#32, strArg (js! "ab")] =
      .ok (js! "-00042  ffab   ") ∧
    chop [6, 4, 5] (js! "-00042  ffab   ") = [js! "-00042", js! "  ff", js! "ab   "] := by decide +kernel
-- a value that does not fit moves the columns after it: 2 | 345 and 23 | 45
example : printf sampleDates sampleDateEnv (js! "%1d%1d") [intArg 2#32, intArg 345#32] =
    printf sampleDates sampleDateEnv (js! "%1d%1d") [intArg 23#32, intArg 45#32] := by decide +kernel
-- a text with the separator in it: "a" | "b,c" and "a,b" | "c"
example : printf sampleDates sampleDateEnv (js! "%s,%s") [strArg (js! "a"), strArg (js! "b,c")] =
    printf sampleDates sampleDateEnv (js! "%s,%s") [strArg (js! "a,b"), strArg (js! "c")] := by decide +kernel
-- a text with a space where the padding goes
example : printf sampleDates sampleDateEnv (js! "%3s") [strArg (js! " a")] =
    printf sampleDates sampleDateEnv (js! "%3s") [strArg (js! "a")] := by decide +kernel
-- too few digits
example : printf sampleDates sampleDateEnv (js! "%.15e") [doubleArg 0x3FF0000000000001#64] =
    printf sampleDates sampleDateEnv (js! "%.15e") [doubleArg 0x3FF0000000000000#64] := by decide +kernel

end FastPrintf
