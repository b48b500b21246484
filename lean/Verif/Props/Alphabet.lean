/-
Property C80: which characters can appear in the output, and what follows for lines and columns.
-/
import Verif.Proofs.Alphabet
import Verif.Props.Determined

namespace FastPrintf
open Spec DefaultAppender

theorem alphabet_upper : ∀ p ∈ casePairs, ∀ c ∈ alphabet p.1, Spec.upper c ∈ alphabet p.2 := by decide

theorem map_ok {α β : Type} {f : α → β} {r : Res α} {b : β} (h : r.map f = .ok b) : ∃ a, r = .ok a ∧ f a = b := by
  cases r with
  | error e => cases h
  | ok a => exact ⟨a, rfl, Except.ok.inj h⟩

theorem lookup_mem {l : List (JChar × JStr)} {k : JChar} {a : JStr} (h : l.lookup k = some a) : (k, a) ∈ l := by
  induction l with
  | nil => cases h
  | cons p l ih =>
    obtain ⟨k', a'⟩ := p
    rw [List.lookup_cons] at h
    by_cases hk : k = k'
    · subst hk
      simp at h
      subst h
      exact List.mem_cons_self ..
    · rw [show (k == k') = false by simpa using hk] at h
      exact List.mem_cons_of_mem _ (ih h)

theorem prints_chars {jdk : JdkEnv} {env : DateEnv} {d : Directive} {e : Entry} {r : Res JStr}
    (h : Prints jdk env d e r) : ∀ s, r = .ok s → ∀ c ∈ s, MayPrint jdk env d e c := by
  induction h with
  | signed hc hr ht =>
    rintro _ ⟨⟩ c hm
    unfold SignedNumberText at ht
    split_ifs at ht
    · subst ht; simp at hm
    · rcases ht.chars hm with h | h
      · exact .inl h
      · right; left
        rcases hc with hc | hc <;> rw [hc] <;> exact sub_chars (by decide) h
  | unsigned hc hr hn ht =>
    rintro _ ⟨⟩ c hm
    rename_i k x n out
    rcases ht with ⟨-, -, rfl⟩ | ⟨-, ht⟩
    · rcases mem_padded hm with h | h
      · exact .inl h
      · right; left
        rw [List.eq_of_mem_replicate h, hc]
        cases k <;> decide
    · rcases ht.chars hm with h | h
      · exact .inl h
      · right; left; rwa [hc]
  | negative => rintro _ ⟨⟩
  | noInteger => rintro _ ⟨⟩
  | floating hc hr ht =>
    intro s hs c hm
    rcases ht.chars hc hs hm with h | h
    · exact .inl h
    · exact .inr (.inl h)
  | noFloat => rintro _ ⟨⟩
  | text hc hr =>
    intro s hs c hm
    obtain ⟨t, rfl, rfl⟩ := map_ok hs
    rcases mem_padded hm with h | h
    · exact .inl h
    · exact .inr (.inr ⟨t, by rw [hc]; exact .text hr, mem_cut h⟩)
  | rope hc id =>
    rintro _ ⟨⟩ c hm
    rcases mem_padWith hm with h | rfl | h | h
    · exact .inl h
    · -- no zeros: the field is padded with spaces
      rename_i d q
      unfold padWith at hm
      have : 48 ∈ cut d.prec.precision q.text := by
        by_cases hl : ch! '-' ∈ d.flags
        · rw [if_pos (by simpa using hl)] at hm
          simpa [List.mem_replicate] using hm
        · rw [if_neg (by simpa using hl), if_neg (by simp)] at hm
          simpa [List.mem_replicate] using hm
      exact .inr (.inr ⟨_, by rw [hc]; exact .rope _ _, mem_cut this⟩)
    · simp at h
    · exact .inr (.inr ⟨_, by rw [hc]; exact .rope _ _, mem_cut h⟩)
  | char hc hr =>
    intro s hs c hm
    obtain ⟨t, rfl, rfl⟩ := map_ok hs
    rcases mem_padded hm with h | h
    · exact .inl h
    · exact .inr (.inr ⟨[t], by rw [hc]; exact .char hr, h⟩)
  | pointer hc hr =>
    intro s hs c hm
    obtain ⟨t, rfl, rfl⟩ := map_ok hs
    rcases mem_padded hm with h | h
    · exact .inl h
    · exact .inr (.inr ⟨t, by rw [hc]; exact .pointer hr, h⟩)
  | time hc hr hf =>
    intro s hs c hm
    obtain ⟨t, ht, rfl⟩ := map_ok hs
    rcases mem_padded hm with h | h
    · exact .inl h
    · exact .inr (.inr ⟨t, by rw [hc]; exact .time hr hf ht, h⟩)
  | noFormat => rintro _ ⟨⟩
  | noTime => rintro _ ⟨⟩
  | nothing => rintro _ ⟨⟩ c hm; simp at hm
  | percent hc => rintro _ ⟨⟩ c hm; right; left; rw [hc]; exact sub_chars (by decide) hm
  | upper hc h ih =>
    intro s hs c hm
    obtain ⟨t, rfl, rfl⟩ := map_ok hs
    obtain ⟨c', hc', rfl⟩ := List.mem_map.1 hm
    rcases ih t rfl c' hc' with h | h | ⟨u, h1, h2⟩
    · subst h; exact .inl (by decide)
    · exact .inr (.inl (alphabet_upper _ hc _ h))
    · exact .inr (.inr ⟨u.map Spec.upper, .upper hc h1, List.mem_map_of_mem h2⟩)

/-- **C80 (one directive).** What a directive prints consists of spaces, the characters of its conversion, and, for
`%s`, `%c`, `%p` and `%t`, characters of what it quotes. -/
theorem C80_directive (dates : DateSyntax) (env : DateEnv) (jdk : JdkEnv) (hj : InstantsFit jdk) (d : Directive)
    (h : d.Ok dates) (hp : d.Plain) (e : Entry) (he : Covered e) (s : JStr)
    (hs : printf dates env d.text [e.toTraits jdk] = .ok s) : ∀ c ∈ s, MayPrint jdk env d e c :=
  prints_chars (C55_directive dates env jdk hj d h hp e he) s hs

/-- A settled directive has the conversion and the pattern of the original. -/
theorem settles_same {jdk : JdkEnv} {d : Directive} {es : List Entry} {r : Res (Directive × List Entry)}
    (h : Settles jdk d es r) : ∀ d' es', r = .ok (d', es') →
      d'.conv = d.conv ∧ d'.date = d.date ∧ ∀ e ∈ es', e ∈ es := by
  induction h with
  | plain h es => rintro d' es' ⟨⟩; exact ⟨rfl, rfl, fun _ h => h⟩
  | missing => rintro d' es' ⟨⟩
  | unreadable => rintro d' es' ⟨⟩
  | width h hr hw hs ih =>
    intro d' es' hr
    obtain ⟨h1, h2, h3⟩ := ih d' es' hr
    exact ⟨h1, h2, fun e h => List.mem_cons_of_mem _ (h3 e h)⟩
  | negativeWidth h hr hn hw hs ih =>
    intro d' es' hr
    obtain ⟨h1, h2, h3⟩ := ih d' es' hr
    exact ⟨h1, h2, fun e h => List.mem_cons_of_mem _ (h3 e h)⟩
  | hugeWidth => rintro d' es' ⟨⟩
  | precision hw h hr hd hn es => rintro d' es' ⟨⟩; exact ⟨rfl, rfl, fun _ h => List.mem_cons_of_mem _ h⟩
  | negativePrecision hw h hr hn es => rintro d' es' ⟨⟩; exact ⟨rfl, rfl, fun _ h => List.mem_cons_of_mem _ h⟩
  | hugePrecision => rintro d' es' ⟨⟩

theorem mayPrint_same {jdk : JdkEnv} {env : DateEnv} {d d' : Directive} {e : Entry} {c : JChar}
    (h1 : d'.conv = d.conv) (h2 : d'.date = d.date) (h : MayPrint jdk env d' e c) : MayPrint jdk env d e c := by
  unfold MayPrint at *; rwa [h1, h2] at h

theorem output_count {jdk : JdkEnv} {env : DateEnv} {ps : List Piece} {es : List Entry} {r : Res JStr}
    (h : Output jdk env ps es r) (c : JChar) :
    (∀ d, .dir d ∈ ps → ∀ e ∈ es, ¬ MayPrint jdk env d e c) → ∀ s, r = .ok s →
      s.count c = (literalText ps).count c := by
  induction h with
  | done es => rintro - _ ⟨⟩; rfl
  | lit t h ih =>
    intro hm s hs
    obtain ⟨u, rfl, rfl⟩ := map_ok hs
    simp only [literalText, List.count_append]
    rw [ih (fun d hd => hm d (List.mem_cons_of_mem _ hd)) u rfl]
  | percent h ih =>
    intro hm s hs
    obtain ⟨u, rfl, rfl⟩ := map_ok hs
    simp only [literalText, List.count_append, List.count_cons, List.count_nil]
    rw [ih (fun d hd => hm d (List.mem_cons_of_mem _ hd)) u rfl]
    omega
  | badStar => rintro - _ ⟨⟩
  | noArgument => rintro - _ ⟨⟩
  | fails => rintro - _ ⟨⟩
  | prints hs hp h ih =>
    intro hm s hs'
    obtain ⟨u, rfl, rfl⟩ := map_ok hs'
    obtain ⟨h1, h2, h3⟩ := settles_same hs _ _ rfl
    rename_i d d' es es' e out ps
    rw [List.count_append, ih (fun d hd x hx => hm d (List.mem_cons_of_mem _ hd) x (h3 x (List.mem_cons_of_mem _ hx))) u rfl]
    have : out.count c = 0 := by
      rw [List.count_eq_zero]
      intro hc
      exact hm d (List.mem_cons_self ..) e (h3 e (List.mem_cons_self ..)) (mayPrint_same h1 h2 (prints_chars hp _ rfl c hc))
    simp only [literalText]
    omega

/-- **C80 (lines).** A character that no directive can print for any of the arguments occurs in the output exactly
as often as in the literal text of the format string.  For a line break: the number of lines is that of the format,
unless an argument quoted by `%s`, `%c`, `%p` or `%t` contains one. -/
theorem C80_lines (dates : DateSyntax) (env : DateEnv) (jdk : JdkEnv) (hj : InstantsFit jdk) (f : JStr)
    (ps : List Piece) (h : Reading dates f ps) (es : List Entry) (he : ∀ e ∈ es, Covered e) (s : JStr)
    (hs : printf dates env f (es.map (·.toTraits jdk)) = .ok s) (c : JChar)
    (hc : ∀ d, .dir d ∈ ps → ∀ e ∈ es, ¬ MayPrint jdk env d e c) : s.count c = (literalText ps).count c :=
  output_count (C55_semantics dates env jdk hj f ps h es he) c hc s hs

/-- **C80 (numbers have no line breaks).** The conversions of numbers cannot print any character outside printable
ASCII. -/
theorem C80_printable : ∀ p ∈ alphabets, ∀ c ∈ p.2, 33 ≤ c ∧ c ≤ 126 := by decide

theorem quotes_conv {jdk : JdkEnv} {env : DateEnv} {date : Option JStr} {k : JChar} {e : Entry} {s : JStr}
    (h : Quotes jdk env date k e s) : k ∈ js! "scptST" := by
  induction h with
  | upper hc h ih =>
    have : ∀ p ∈ casePairs, p.1 ∈ js! "scptST" → p.2 ∈ js! "scptST" := by decide
    exact this _ hc ih
  | _ => decide

/-- **C80 (numbers only).** With `%d`, `%i`, `%u`, `%o`, `%x`, `%f`, `%e`, `%g`, `%a`, their twins, `%n` and `%%` only,
the number of line breaks is that of the format, for all arguments. -/
theorem C80_numbers (dates : DateSyntax) (env : DateEnv) (jdk : JdkEnv) (hj : InstantsFit jdk) (f : JStr)
    (ps : List Piece) (h : Reading dates f ps) (hd : ∀ d, .dir d ∈ ps → d.conv ∉ js! "scptST") (es : List Entry)
    (he : ∀ e ∈ es, Covered e) (s : JStr) (hs : printf dates env f (es.map (·.toTraits jdk)) = .ok s) (c : JChar)
    (hc : c < 32 ∨ 126 < c) : s.count c = (literalText ps).count c := by
  refine C80_lines dates env jdk hj f ps h es he s hs c ?_
  rintro d hm e - (h1 | h1 | ⟨t, h1, -⟩)
  · omega
  · unfold alphabet at h1
    cases hl : alphabets.lookup d.conv with
    | none => rw [hl] at h1; simp at h1
    | some a =>
      rw [hl] at h1
      have := C80_printable _ (lookup_mem hl) c h1
      omega
  · exact hd d hm (quotes_conv h1)

/-! ### Columns -/

/-- The outputs of formats that are run one after the other, each on the arguments the ones before it left. -/
inductive Spec.Columns (dates : DateSyntax) (env : DateEnv) (jdk : JdkEnv) :
    List (JStr × List Piece) → List Entry → List JStr → Prop
  | done (es : List Entry) : Spec.Columns dates env jdk [] es []
  | more {f t : JStr} {ps : List Piece} {fs : List (JStr × List Piece)} {es : List Entry} {ts : List JStr}
      (h : printf dates env f (es.map (·.toTraits jdk)) = .ok t)
      (hs : Spec.Columns dates env jdk fs (es.drop (arity ps)) ts) : Spec.Columns dates env jdk ((f, ps) :: fs) es (t :: ts)

/-- Running a format, a separator and another format. -/
theorem run_separated {dates : DateSyntax} {env : DateEnv} {c : JChar} (h1 : c ≠ ch! '%') (h2 : c ≠ ch! '{')
    {f g : JStr} {as bs : List Appender} (hf : Compiler.compile dates f = .ok as)
    (hg : Compiler.compile dates g = .ok bs) :
    ∃ cs, Compiler.compile dates (f ++ [c] ++ g) = .ok cs ∧
      ∀ args sb, runSB env cs args sb =
        match runSB env as args sb with
        | ⟨sb, .error e⟩ => ⟨sb, .error e⟩
        | ⟨sb, .ok rest⟩ => runSB env bs rest (sb ++ [c]) := by
  have hr : Reading dates [c] [.lit [c]] :=
    reading_lit.2 ⟨[], by simp, by simp, by simpa using Ne.symm h1, by simp, reading_nil.2 rfl⟩
  have hc : Compiler.compile dates [c] = .ok [(Piece.lit [c]).compiled] := (compile_iff dates _ _).2 ⟨_, hr, rfl⟩
  obtain ⟨ds, hd, hdr⟩ := C05_compositional dates env [c] g _ bs hc hg (by
    intro ps hps hb
    have : ps = [.lit [c]] := reading_unique hps hr
    subst this
    exact absurd hb (by simp [EndsWithBareDate]))
  obtain ⟨cs, hcs, hrun⟩ := C05_compositional dates env f ([c] ++ g) as ds hf hd (by
    intro ps _ _
    simpa using h2)
  refine ⟨cs, by rw [List.append_assoc]; exact hcs, ?_⟩
  intro args sb
  rw [hrun]
  rcases runSB env as args sb with ⟨sb', r⟩
  cases r with
  | error e => rfl
  | ok rest =>
    dsimp only
    rw [hdr]
    rfl

theorem printf_run {dates : DateSyntax} {env : DateEnv} {f : JStr} {as : List Appender}
    (hf : Compiler.compile dates f = .ok as) {args : List Traits} {t : JStr} :
    printf dates env f args = .ok t ↔ ∃ rest, runSB env as args [] = ⟨t, .ok rest⟩ := by
  unfold printf
  rw [hf, bind_ok, formatWith_eq]
  rcases runSB env as args [] with ⟨sb, r⟩
  cases r with
  | error e => exact ⟨fun h => (by cases h), fun ⟨_, h⟩ => (by cases h)⟩
  | ok rest =>
    constructor
    · intro h; cases h; exact ⟨rest, rfl⟩
    · rintro ⟨_, h⟩; cases h; rfl

/-- **C80 (joined formats).** Formats joined by a separator character print their outputs joined by it, each on the
arguments that the ones before it left. -/
theorem C80_join (dates : DateSyntax) (env : DateEnv) (jdk : JdkEnv) (c : JChar) (h1 : c ≠ ch! '%') (h2 : c ≠ ch! '{')
    (fs : List (JStr × List Piece)) (hr : ∀ p ∈ fs, Reading dates p.1 p.2) (es : List Entry)
    (out : JStr) :
    printf dates env ([c].intercalate (fs.map (·.1))) (es.map (·.toTraits jdk)) = .ok out ↔
      ∃ ts, Columns dates env jdk fs es ts ∧ out = [c].intercalate ts := by
  have compiled : ∀ p ∈ fs, Compiler.compile dates p.1 = .ok (p.2.map Piece.compiled) :=
    fun p hp => (compile_iff dates _ _).2 ⟨_, hr p hp, rfl⟩
  suffices h : ∃ cs, Compiler.compile dates ([c].intercalate (fs.map (·.1))) = .ok cs ∧ ∀ es out,
      (∃ rest, runSB env cs (es.map (·.toTraits jdk)) [] = ⟨out, .ok rest⟩) ↔
        ∃ ts, Columns dates env jdk fs es ts ∧ out = [c].intercalate ts by
    obtain ⟨cs, hcs, h⟩ := h
    rw [printf_run hcs, h]
  clear es out
  induction fs with
  | nil =>
    refine ⟨[], (compile_iff dates _ _).2 ⟨[], reading_nil.2 rfl, rfl⟩, fun es out => ?_⟩
    constructor
    · rintro ⟨rest, h⟩; cases h; exact ⟨[], .done es, rfl⟩
    · rintro ⟨ts, h, rfl⟩; cases h; exact ⟨_, rfl⟩
  | cons p fs ih =>
    obtain ⟨f, ps⟩ := p
    have hf := compiled _ (List.mem_cons_self ..)
    have hrf := hr _ (List.mem_cons_self ..)
    dsimp only at hf hrf
    cases fs with
    | nil =>
      refine ⟨_, by simpa using hf, fun es out => ?_⟩
      rw [← printf_run hf]
      constructor
      · intro h; exact ⟨[out], .more h (.done _), by simp⟩
      · rintro ⟨ts, h, rfl⟩
        cases h with
        | more h hs => cases hs; simpa using h
    | cons q fs =>
      obtain ⟨cs, hcs, hrun⟩ := ih (fun p hp => hr p (List.mem_cons_of_mem _ hp))
        (fun p hp => compiled p (List.mem_cons_of_mem _ hp))
      obtain ⟨ds, hds, hd⟩ := run_separated (env := env) h1 h2 hf hcs
      refine ⟨ds, by simpa [List.intercalate_cons_cons] using hds, fun es out => ?_⟩
      rw [hd]
      constructor
      · rintro ⟨rest, h⟩
        rcases hx : runSB env (ps.map Piece.compiled) (es.map (·.toTraits jdk)) [] with ⟨sb, r⟩
        rw [hx] at h
        cases r with
        | error e => cases h
        | ok mid =>
          dsimp only at h
          have hmid := (C06_consumption_fixed dates env f ps hrf _ hf _ _ _ _ hx).2
          rw [runSB_prefix] at h
          rw [hmid, ← List.map_drop] at h
          obtain ⟨e1, e2⟩ := Outcome.mk.inj h
          obtain ⟨ts, k1, k2⟩ := (hrun (es.drop (arity ps)) _).1 ⟨rest, by rw [← e2]⟩
          refine ⟨sb :: ts, .more ((printf_run hf).2 ⟨_, hx⟩) k1, ?_⟩
          cases k1 with
          | more k k' => rw [← e1, k2, List.intercalate_cons_cons]
      · rintro ⟨ts, h, rfl⟩
        cases h with
        | more k k' =>
          rename_i t ts
          obtain ⟨mid, hx⟩ := (printf_run hf).1 k
          rw [hx]
          dsimp only
          have hmid := (C06_consumption_fixed dates env f ps hrf _ hf _ _ _ _ hx).2
          obtain ⟨rest, hy⟩ := (hrun _ _).2 ⟨ts, k', rfl⟩
          refine ⟨rest, ?_⟩
          rw [runSB_prefix, hmid, ← List.map_drop, hy]
          cases k' with
          | more _ _ => rw [List.intercalate_cons_cons]

theorem columns_clean {dates : DateSyntax} {env : DateEnv} {jdk : JdkEnv} (hj : InstantsFit jdk) {c : JChar}
    {fs : List (JStr × List Piece)} {es : List Entry} {ts : List JStr} (h : Columns dates env jdk fs es ts) :
    (∀ p ∈ fs, Reading dates p.1 p.2) → (∀ e ∈ es, Covered e) → (∀ p ∈ fs, c ∉ literalText p.2) →
    (∀ p ∈ fs, ∀ d, .dir d ∈ p.2 → ∀ e ∈ es, ¬ MayPrint jdk env d e c) → (∀ t ∈ ts, c ∉ t) ∧ ts.length = fs.length := by
  induction h with
  | done es => intro _ _ _ _; simp
  | more h hs ih =>
    intro hr he hl hc
    rename_i f t ps fs es ts
    obtain ⟨i1, i2⟩ := ih (fun p hp => hr p (List.mem_cons_of_mem _ hp)) (fun e h => he e (List.mem_of_mem_drop h))
      (fun p hp => hl p (List.mem_cons_of_mem _ hp))
      (fun p hp d hd e h => hc p (List.mem_cons_of_mem _ hp) d hd e (List.mem_of_mem_drop h))
    refine ⟨?_, by simp [i2]⟩
    intro u hu
    rcases List.mem_cons.1 hu with rfl | hu
    · rw [← List.count_eq_zero,
        C80_lines dates env jdk hj f ps (hr _ (List.mem_cons_self ..)) es he u h c
          (fun d hd e h => hc _ (List.mem_cons_self ..) d hd e h), List.count_eq_zero]
      exact hl _ (List.mem_cons_self ..)
    · exact i1 u hu

/-- **C80 (columns).** If no column can print the separator, splitting the line at the separator gives the columns
back. -/
theorem C80_columns (dates : DateSyntax) (env : DateEnv) (jdk : JdkEnv) (hj : InstantsFit jdk) (c : JChar)
    (h1 : c ≠ ch! '%') (h2 : c ≠ ch! '{') (fs : List (JStr × List Piece)) (hn : fs ≠ [])
    (hr : ∀ p ∈ fs, Reading dates p.1 p.2) (hl : ∀ p ∈ fs, c ∉ literalText p.2) (es : List Entry)
    (he : ∀ e ∈ es, Covered e) (hc : ∀ p ∈ fs, ∀ d, .dir d ∈ p.2 → ∀ e ∈ es, ¬ MayPrint jdk env d e c) (out : JStr)
    (h : printf dates env ([c].intercalate (fs.map (·.1))) (es.map (·.toTraits jdk)) = .ok out) :
    Columns dates env jdk fs es (out.splitOn c) := by
  obtain ⟨ts, k1, rfl⟩ := (C80_join dates env jdk c h1 h2 fs hr es out).1 h
  obtain ⟨k2, k3⟩ := columns_clean hj k1 hr he hl hc
  rw [List.splitOn_intercalate c k2 (by rintro rfl; exact hn (List.length_eq_zero_iff.1 k3.symm))]
  exact k1

/-- The columns of a list of directives. -/
def Spec.dirColumns (ds : List Directive) : List (JStr × List Piece) := ds.map fun d => (d.text, [.dir d])

theorem integer_columns {dates : DateSyntax} {env : DateEnv} {jdk : JdkEnv} {ds : List Directive}
    (hd : ∀ d ∈ ds, d.Ok dates ∧ d.Plain ∧ (d.conv = ch! 'd' ∨ d.conv = ch! 'i') ∧ d.prec.precision ≠ some 0) :
    ∀ {xs xs' : List Integral} {es es' : List Entry} {ts : List JStr}, List.Forall₂ Integral.Given xs es →
      List.Forall₂ Integral.Given xs' es' → Columns dates env jdk (dirColumns ds) es ts →
      Columns dates env jdk (dirColumns ds) es' ts → (xs.map Integral.value).take ds.length = (xs'.map Integral.value).take ds.length := by
  induction ds with
  | nil => intros; simp
  | cons d ds ih =>
    intro xs xs' es es' ts h h' k k'
    obtain ⟨d1, d2, d3, d4⟩ := hd d (List.mem_cons_self ..)
    have ar : arity [.dir d] = 1 := by
      simp [arity, Piece.arity, d2.width, d2.prec]
    have none : ∀ t, printf dates env d.text (([] : List Entry).map (·.toTraits jdk)) ≠ .ok t := by
      intro t ht
      obtain ⟨e, he⟩ := (C07_missing_reported dates env _ _ (reading_dir d1) [] (by rw [ar]; simp)).1
      rw [List.map_nil, he] at ht
      cases ht
    cases k with
    | more k1 k2 =>
      cases k' with
      | more k1' k2' =>
        rw [ar] at k2 k2'
        cases h with
        | nil => exact absurd k1 (none _)
        | cons hx hs =>
          cases h' with
          | nil => exact absurd k1' (none _)
          | cons hx' hs' =>
            obtain ⟨o, p1, p2, -⟩ := C13_d_reads_back dates env jdk d d1 d2 d3 _ _ hx _
            obtain ⟨o', p1', p2', -⟩ := C13_d_reads_back dates env jdk d d1 d2 d3 _ _ hx' _
            rw [List.map_cons, p1] at k1
            rw [List.map_cons, p1', ← k1] at k1'
            cases k1'
            have e1 := p2 (fun h => d4 h.2)
            have e2 := p2' (fun h => d4 h.2)
            have := ih (fun d hm => hd d (List.mem_cons_of_mem _ hm)) hs hs' k2 k2'
            simp only [List.map_cons, List.length_cons, List.take_succ_cons, this, ← e1, ← e2]

/-- **C80 (integers in columns).** A line of `%d` columns, with any flags, widths and precisions other than 0, and
with a separator that is not a digit, a sign, a space, `%` or `{`, determines the integers printed. -/
theorem C80_integers (dates : DateSyntax) (env : DateEnv) (jdk : JdkEnv) (hj : InstantsFit jdk) (c : JChar)
    (hc : c ∉ js! " +-0123456789%{") (ds : List Directive) (hn : ds ≠ [])
    (hd : ∀ d ∈ ds, d.Ok dates ∧ d.Plain ∧ (d.conv = ch! 'd' ∨ d.conv = ch! 'i') ∧ d.prec.precision ≠ some 0)
    (xs xs' : List Integral) (es es' : List Entry) (hx : List.Forall₂ Integral.Given xs es)
    (hx' : List.Forall₂ Integral.Given xs' es') (he : ∀ e ∈ es, Covered e) (he' : ∀ e ∈ es', Covered e) (out : JStr)
    (h : printf dates env ([c].intercalate (ds.map (·.text))) (es.map (·.toTraits jdk)) = .ok out)
    (h' : printf dates env ([c].intercalate (ds.map (·.text))) (es'.map (·.toTraits jdk)) = .ok out) :
    (xs.map Integral.value).take ds.length = (xs'.map Integral.value).take ds.length := by
  have hm : (dirColumns ds).map (·.1) = ds.map (·.text) := by simp [dirColumns]
  have key : ∀ es : List Entry, (∀ e ∈ es, Covered e) →
      printf dates env ([c].intercalate (ds.map (·.text))) (es.map (·.toTraits jdk)) = .ok out →
      Columns dates env jdk (dirColumns ds) es (out.splitOn c) := by
    intro es he h
    rw [← hm] at h
    refine C80_columns dates env jdk hj c ?_ ?_ _ (by simpa [dirColumns] using hn) ?_ ?_ es he ?_ out h
    · rintro rfl; exact hc (by decide)
    · rintro rfl; exact hc (by decide)
    · intro p hp
      obtain ⟨d, hd', rfl⟩ := List.mem_map.1 hp
      exact reading_dir (hd d hd').1
    · intro p hp
      obtain ⟨d, hd', rfl⟩ := List.mem_map.1 hp
      simp [literalText]
    · intro p hp d' hd' e _
      obtain ⟨d, hdm, rfl⟩ := List.mem_map.1 hp
      simp only [List.mem_singleton, Piece.dir.injEq] at hd'
      subst hd'
      obtain ⟨-, -, h3, -⟩ := hd _ hdm
      rintro (rfl | h1 | ⟨t, h1, -⟩)
      · exact hc (by decide)
      · have : c ∈ js! "+-0123456789" := by
          rcases h3 with h3 | h3 <;> rw [h3] at h1 <;> exact sub_chars (by decide) h1
        exact hc (sub_chars (by decide) this)
      · have := quotes_conv h1
        rcases h3 with h3 | h3 <;> rw [h3] at this <;> revert this <;> decide
  exact integer_columns hd hx hx' (key es he h) (key es' he' h')

/-! ### Examples -/

-- a semicolon cannot come from %5d or %x, a line feed not from %s of "ab", but from %s of "a\nb"
example (env : DateEnv) (e : Entry) : ¬ MayPrint sampleJdk env (bare (ch! 'x')) e (ch! ';') := by
  rintro (h | h | ⟨t, h, -⟩)
  · revert h; decide
  · revert h; decide
  · exact absurd (quotes_conv h) (by decide)
example : printf sampleDates sampleDateEnv (js! "%d;%x\n") [intArg 12#32, intArg 255#32] = .ok (js! "12;ff\n") ∧
    (js! "12;ff\n").splitOn (ch! ';') = [js! "12", js! "ff\n"] := by decide +kernel
-- a line feed in an argument makes a second line
example : printf sampleDates sampleDateEnv (js! "user=%s") [strArg (js! "x\nadmin")] = .ok (js! "user=x\nadmin") ∧
    (literalText [.lit (js! "user="), .dir (bare (ch! 's'))]).count 10 = 0 := by decide +kernel
-- columns that can print their separator are not told apart
example : printf sampleDates sampleDateEnv (js! "%d-%d") [intArg (-1), intArg 2] = .ok (js! "-1-2") ∧
    printf sampleDates sampleDateEnv (js! "%s-%s") [strArg [], strArg (js! "1-2")] = .ok (js! "-1-2") := by decide +kernel

-- the hypotheses of C80_integers and C80_lines hold for `%d;%d` with any two ints
theorem sample_fits : InstantsFit sampleJdk := by
  intro t sec nano h
  simp [sampleJdk] at h
example (a b a' b' : BitVec 32) (out : JStr)
    (h : printf sampleDates sampleDateEnv (js! "%d;%d") [intArg a, intArg b] = .ok out)
    (h' : printf sampleDates sampleDateEnv (js! "%d;%d") [intArg a', intArg b'] = .ok out) :
    a.toInt = a'.toInt ∧ b.toInt = b'.toInt ∧ out.count (ch! ';') = 1 := by
  have cov : ∀ a b : BitVec 32, ∀ e ∈ [Entry.prim (.int a), .prim (.int b)], Covered e := by
    intro a b e he
    simp only [List.mem_cons, List.not_mem_nil, or_false] at he
    rcases he with rfl | rfl <;> exact .prim (by simp)
  have ok : ∀ d ∈ [bare (ch! 'd'), bare (ch! 'd')], d.Ok sampleDates ∧ d.Plain ∧
      (d.conv = ch! 'd' ∨ d.conv = ch! 'i') ∧ d.prec.precision ≠ some 0 := by
    intro d hd
    have : d = bare (ch! 'd') := by simpa using hd
    subst this
    exact ⟨bare_ok (by decide) (by decide), ⟨by simp [bare], by simp [bare]⟩, .inl rfl, by simp [bare, Num.precision]⟩
  have := C80_integers sampleDates sampleDateEnv sampleJdk sample_fits (ch! ';') (by decide)
    [bare (ch! 'd'), bare (ch! 'd')] (by simp) ok [.int a, .int b] [.int a', .int b']
    [.prim (.int a), .prim (.int b)] [.prim (.int a'), .prim (.int b')]
    (.cons (.prim rfl) (.cons (.prim rfl) .nil)) (.cons (.prim rfl) (.cons (.prim rfl) .nil)) (cov a b) (cov a' b') out h h'
  simp only [List.map_cons, List.map_nil, List.length_cons, List.length_nil, Integral.value, List.take_succ_cons,
    List.take_zero, List.cons.injEq, and_true] at this
  refine ⟨this.1, this.2, ?_⟩
  have hr : Reading sampleDates (js! "%d;%d") [.dir (bare (ch! 'd')), .lit (js! ";"), .dir (bare (ch! 'd'))] := by
    refine ⟨by decide, ?_, by simp [Separated, MayFollow, IsDateConv, bare]⟩
    intro p hp
    simp only [List.mem_cons, List.not_mem_nil, or_false] at hp
    rcases hp with rfl | rfl | rfl
    · exact bare_ok (by decide) (by decide)
    · exact ⟨by decide, by decide⟩
    · exact bare_ok (by decide) (by decide)
  refine C80_lines _ _ sampleJdk sample_fits _ _ hr [.prim (.int a), .prim (.int b)] (cov a b) out h _ ?_
  intro d hd e _
  have : d = bare (ch! 'd') := by simpa using hd
  subst this
  rintro (h | h | ⟨t, h, -⟩)
  · revert h; decide
  · revert h; decide
  · exact absurd (quotes_conv h) (by decide)

end FastPrintf
