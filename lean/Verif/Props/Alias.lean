/-
C64: the target of a call among its own arguments.
-/
import Verif.Props.Semantics
import Verif.Spec.Alias

namespace FastPrintf
open Spec DefaultAppender

/-! ### Which leaves are lazy -/

/-- A leaf that is not lazy. -/
def Eager (a : Atomic) : Prop := ∀ o n, a ≠ .lazy o n

theorem eager_ch (c : JChar) : Eager (Atomic.ch c) := by intro o n; simp [Atomic.ch]

theorem eager_wrapRange {s : JStr} {i j : Int} {b : Atomic} (h : Atomic.wrapRange s i j = .ok b) : Eager b := by
  obtain ⟨_, -, h⟩ := bind_eq_ok.1 h
  intro o n
  split_ifs at h
  · cases h; simp
  · obtain ⟨c, -, h⟩ := bind_eq_ok.1 h
    cases h; exact eager_ch c o n
  · cases h; simp

theorem eager_sub {a b : Atomic} {i j : Int} (h : a.subSequence i j = .ok b) : Eager b := by
  cases a with
  | empty => simp only [Atomic.subSequence] at h; split_ifs at h; cases h; intro o n; simp
  | repeated c n =>
    obtain ⟨_, -, h⟩ := bind_eq_ok.1 h
    intro o n
    split_ifs at h <;> · cases h; simp
  | strView s st n up =>
    obtain ⟨_, -, h⟩ := bind_eq_ok.1 h
    intro o n
    split_ifs at h
    · cases h; simp
    · obtain ⟨c, -, h⟩ := bind_eq_ok.1 h
      cases h; exact eager_ch _ o n
    · cases h; simp
  | charArray s st n up =>
    obtain ⟨_, -, h⟩ := bind_eq_ok.1 h
    intro o n
    split_ifs at h
    · cases h; simp
    · obtain ⟨c, -, h⟩ := bind_eq_ok.1 h
      cases h; exact eager_ch _ o n
    · cases h; simp
  | lazy out n =>
    obtain ⟨_, -, h⟩ := bind_eq_ok.1 h
    obtain ⟨_, -, h⟩ := bind_eq_ok.1 h
    exact eager_wrapRange h
  | failing out n e =>
    obtain ⟨_, -, h⟩ := bind_eq_ok.1 h
    cases h

theorem eager_upper {a b : Atomic} (h : a.upperCase = .ok b) : Eager b := by
  cases a with
  | lazy out n =>
    obtain ⟨s, -, h⟩ := bind_eq_ok.1 h
    intro o n
    rcases s with _ | ⟨c, _ | ⟨c', s⟩⟩
    · cases h; simp [Atomic.wrap]
    · simp only [Atomic.wrap, Atomic.ch] at h
      split_ifs at h <;> · cases h; simp
    · cases h; simp
  | repeated c n =>
    intro o n
    simp only [Atomic.upperCase] at h
    split_ifs at h <;> · cases h; simp [Atomic.ch]
  | failing out n e => cases h
  | _ => cases h; intro o n; simp

theorem eager_mkRepeated {c : JChar} {n : Int} {b : Atomic} (h : Atomic.mkRepeated c n = .ok b) : Eager b := by
  intro o m
  unfold Atomic.mkRepeated at h
  split_ifs at h <;> · cases h; simp [Atomic.ch]

theorem eager_mapM {es bs : List Atomic} (h : es.mapM Atomic.upperCase = .ok bs) : ∀ b ∈ bs, Eager b := by
  induction es generalizing bs with
  | nil => cases h; simp
  | cons a es ih =>
    rw [List.mapM_cons] at h
    obtain ⟨b, h1, h⟩ := bind_eq_ok.1 h
    obtain ⟨cs, h2, h⟩ := bind_eq_ok.1 h
    cases h
    intro x hx
    rcases List.mem_cons.1 hx with rfl | hx
    · exact eager_upper h1
    · exact ih h2 x hx

theorem eager_upperCase {q u : Seq} (h : q.upperCase = .ok u) : ∀ b ∈ u.flat, Eager b := by
  cases q with
  | atom a =>
    obtain ⟨b, h1, h⟩ := bind_eq_ok.1 h
    cases h
    simpa [Seq.flat] using eager_upper h1
  | _ =>
    obtain ⟨ls, -, h⟩ := bind_eq_ok.1 h
    obtain ⟨bs, h1, h⟩ := bind_eq_ok.1 h
    cases h
    exact eager_mapM h1

/-! ### Eager leaves are written as usual -/

theorem leavesToBuilder_eager {es : List Atomic} (hw : ∀ a ∈ es, a.WF) (he : ∀ a ∈ es, Eager a) (sb : JStr) :
    Alias.leavesToBuilder es sb = .ok (sb ++ es.flatMap Atomic.text) := by
  induction es generalizing sb with
  | nil => simp [Alias.leavesToBuilder]
  | cons a es ih =>
    have h1 : Alias.leafToBuilder a sb = .ok (sb ++ a.text) := by
      rw [← Atomic.appendToSB_ok (hw a List.mem_cons_self)]
      cases a with
      | lazy o n => exact absurd rfl (he _ List.mem_cons_self o n)
      | _ => rfl
    rw [Alias.leavesToBuilder, h1, bind_ok, ih (fun b hb => hw b (List.mem_cons_of_mem _ hb))
      (fun b hb => he b (List.mem_cons_of_mem _ hb))]
    simp

theorem leavesToBuffer_eager {es : List Atomic} (hw : ∀ a ∈ es, a.WF) (he : ∀ a ∈ es, Eager a) (rest : List Atomic)
    (st : JStr) :
    Alias.leavesToBuffer (es ++ rest) st = Alias.leavesToBuffer rest (st ++ es.flatMap Atomic.text) := by
  induction es generalizing st with
  | nil => simp
  | cons a es ih =>
    have h1 : Alias.leafToBuffer a st = (st ++ a.text, none) := by
      obtain ⟨cs, c1, c2⟩ := Atomic.appendToCalls_ok (hw a List.mem_cons_self)
      cases a with
      | lazy o n => exact absurd rfl (he _ List.mem_cons_self o n)
      | _ => simp only [Alias.leafToBuffer, c1, c2]
    rw [List.cons_append, Alias.leavesToBuffer, h1]
    simp only
    rw [ih (fun b hb => hw b (List.mem_cons_of_mem _ hb)) (fun b hb => he b (List.mem_cons_of_mem _ hb))]
    simp

/-! ### The sequence of a text in a field -/

theorem justify_flat (ctx : FormatContext) {b : Atomic} (hb : b.WF) :
    ∃ r, SeqFormatter.spaceJustify ctx (.atom b) = .ok r ∧ r.WF ∧
      ((ctx.width.toNat ≤ b.text.length ∧ r.flat = [b]) ∨
        (b.text.length < ctx.width.toNat ∧ ∃ p : Atomic, p.WF ∧ Eager p ∧
          p.text = List.replicate (ctx.width.toNat - b.text.length) 32 ∧
          ((b = .empty ∧ r.flat = [p]) ∨ (ctx.flags.leftJustify = true ∧ r.flat = [b, p]) ∨
            (ctx.flags.leftJustify = false ∧ r.flat = [p, b])))) := by
  have hl : (Seq.atom b).length = b.text.length := Atomic.length_text hb
  have hw := SeqFormatter.width_toNat ctx
  unfold SeqFormatter.spaceJustify
  by_cases hgt : SeqFormatter.width ctx > (Seq.atom b).length
  · rw [if_pos hgt]
    obtain ⟨p, p1, p2, p3⟩ := Atomic.mkRepeated_ok (c := 32) (n := SeqFormatter.width ctx - (Seq.atom b).length)
      (by omega)
    have hn : (SeqFormatter.width ctx - (Seq.atom b).length).toNat = ctx.width.toNat - b.text.length := by omega
    rw [hn] at p3
    have hne : (Seq.atom p).isEmpty = false := by
      have := Atomic.length_text p2
      rw [p3, List.length_replicate] at this
      simp only [Seq.isEmpty, Seq.length, this, beq_eq_false_iff_ne]
      omega
    have hs : Seq.repeated 32 (SeqFormatter.width ctx - (Seq.atom b).length) = .ok (.atom p) := by
      simp [Seq.repeated, p1]
    rw [hs, bind_ok]
    have hc : ∀ x y : Atomic, (Seq.mkConcat (.atom x) (.atom y)).flat = [x, y] := by
      intro x y; rw [Seq.mkConcat_flat]; rfl
    by_cases hb0 : b = .empty
    · subst hb0
      refine ⟨.atom p, ?_, p2, .inr ⟨by omega, p, p2, eager_mkRepeated p1, p3, .inl ⟨rfl, rfl⟩⟩⟩
      split_ifs <;> rfl
    · by_cases hf : ctx.flags.leftJustify = true
      · rw [if_pos (by simpa using hf)]
        refine ⟨_, rfl, Seq.append_wf (s := .atom b) hb (t := .atom p) p2,
          .inr ⟨by omega, p, p2, eager_mkRepeated p1, p3, .inr (.inl ⟨hf, ?_⟩)⟩⟩
        have : (Seq.atom b).append (.atom p) = Seq.mkConcat (.atom b) (.atom p) := by
          cases b with
          | empty => exact absurd rfl hb0
          | _ => simp [Seq.append, hne]
        rw [this, hc]
      · rw [if_neg (by simpa using hf)]
        refine ⟨_, rfl, Seq.prepend_wf (s := .atom b) hb (t := .atom p) p2,
          .inr ⟨by omega, p, p2, eager_mkRepeated p1, p3, .inr (.inr ⟨by simpa using hf, ?_⟩)⟩⟩
        have : (Seq.atom b).prepend (.atom p) = Seq.mkConcat (.atom p) (.atom b) := by
          cases b with
          | empty => exact absurd rfl hb0
          | _ => simp [Seq.prepend, hne]
        rw [this, hc]
  · rw [if_neg hgt]
    exact ⟨_, rfl, hb, .inl ⟨by omega, rfl⟩⟩

theorem s_leaf {d : Directive} (hp : d.Plain) {v : Traits} {a : Atomic} (hv : v.asSeq = .ok (.atom a))
    (ha : a.WF) :
    ∃ b, b.WF ∧ b.text = cut d.prec.precision a.text ∧
      SeqFormatter.s d.context v = SeqFormatter.spaceJustify d.context (.atom b) ∧
      ((Eager b ∧ ∃ p, d.prec.precision = some p ∧ p < a.text.length) ∨
        (b = a ∧ ∀ p, d.prec.precision = some p → a.text.length ≤ p)) := by
  have hl : (Seq.atom a).length = a.text.length := Atomic.length_text ha
  have hpe := hp.prec_eq
  unfold SeqFormatter.precOf at hpe
  unfold SeqFormatter.s
  rw [hv, bind_ok]
  by_cases hc : (d.context.isPrecisionSet && decide (d.context.precision < (Seq.atom a).length)) = true
  · rw [if_pos hc]
    rw [Bool.and_eq_true, SeqFormatter.isPrecisionSet_iff, decide_eq_true_eq] at hc
    rw [if_neg hc.1] at hpe
    have hge : 0 ≤ d.context.precision := by
      rcases hp.precOK with h | h
      · exact absurd h hc.1
      · exact h
    obtain ⟨b, b1, b2, b3⟩ := Atomic.subSequence_ok ha (i := 0) (j := d.context.precision)
      ⟨le_refl _, hge, by omega⟩
    refine ⟨b, b2, ?_, ?_, .inl ⟨eager_sub b1, _, hpe.symm, by omega⟩⟩
    · rw [b3, ← hpe]; simp [Spec.sub, cut]
    · simp [Seq.subSequence, b1]
  · rw [if_neg hc]
    rw [Bool.and_eq_true, SeqFormatter.isPrecisionSet_iff, decide_eq_true_eq] at hc
    have hle : ∀ p, d.prec.precision = some p → a.text.length ≤ p := by
      intro p hpp
      rw [hpp] at hpe
      split_ifs at hpe with hu
      have : d.context.precision.toNat = p := by simpa using hpe
      have h2 : ¬ d.context.precision < (Seq.atom a).length := fun h => hc ⟨hu, h⟩
      omega
    refine ⟨a, ha, ?_, rfl, .inr ⟨rfl, hle⟩⟩
    cases hpp : d.prec.precision with
    | none => rfl
    | some p => simp [cut, List.take_of_length_le (hle p hpp)]

theorem target_leaf (jdk : JdkEnv) (id : Identity) (cur : JStr) :
    ∃ a : Atomic, (Alias.Arg.target.traits jdk id cur).asSeq = .ok (.atom a) ∧ a.WF ∧ a.text = cur ∧
      ((Eager a ∧ cur.length < 2) ∨ (2 ≤ cur.length ∧ a = .lazy cur cur.length)) := by
  match cur with
  | [] => exact ⟨.empty, rfl, trivial, rfl, .inl ⟨by intro o n; simp, by simp⟩⟩
  | [c] => exact ⟨.ch c, rfl, Atomic.wf_ch c, Atomic.text_ch c, .inl ⟨eager_ch c, by simp⟩⟩
  | a :: b :: t =>
    refine ⟨.lazy (a :: b :: t) (a :: b :: t).length, ?_, rfl, rfl, .inr ⟨by simp, rfl⟩⟩
    simp only [Alias.Arg.traits, Obj.toTraits, charSequenceTraits, Atomic.mkLazy]
    rw [if_pos (by omega), if_neg (by simp; omega), if_neg (by simp; omega), Int.toNat_natCast]
    rfl

/-- `%s` of the target: all leaves are eager, or the last or only ones are the target's. -/
theorem s_target {d : Directive} (hp : d.Plain) (jdk : JdkEnv) (id : Identity) (cur : JStr) :
    ∃ r, SeqFormatter.s d.context (Alias.Arg.target.traits jdk id cur) = .ok r ∧ r.WF ∧
      r.text = d.padded (cut d.prec.precision cur) ∧
      (((∀ a ∈ r.flat, Eager a) ∧
          (cur.length < 2 ∨ ∃ p, d.prec.precision = some p ∧ p < cur.length)) ∨
        ((∀ p, d.prec.precision = some p → cur.length ≤ p) ∧ 2 ≤ cur.length ∧
          ((d.width.width ≤ cur.length ∧ r.flat = [.lazy cur cur.length]) ∨
            (cur.length < d.width.width ∧ ∃ p : Atomic, p.WF ∧ Eager p ∧ p.text = leading d cur ∧
              ((ch! '-' ∈ d.flags ∧ r.flat = [.lazy cur cur.length, p]) ∨
                (ch! '-' ∉ d.flags ∧ r.flat = [p, .lazy cur cur.length])))))) := by
  obtain ⟨a, a1, a2, a3, a4⟩ := target_leaf jdk id cur
  obtain ⟨b, b1, b2, b3, b4⟩ := s_leaf hp a1 a2
  obtain ⟨r, r1, r2, r3⟩ := justify_flat d.context b1
  obtain ⟨r', e1, e2, e3⟩ := SeqFormatter.spaceJustify_ok d.context (v0 := .atom b) b1
  rw [r1] at e1
  cases e1
  rw [b3, r1]
  refine ⟨r, rfl, r2, ?_, ?_⟩
  · rw [e3, hp.width_eq, field_padded, left_eq]
    show padded _ _ b.text = _
    rw [b2, a3]; rfl
  · rw [hp.width_eq] at r3
    have hleft : d.context.flags.leftJustify = decide (ch! '-' ∈ d.flags) := left_eq d
    have eager : Eager b → ∀ x ∈ r.flat, Eager x := by
      intro he
      rcases r3 with ⟨-, h⟩ | ⟨-, p, -, hp, -, ⟨-, h⟩ | ⟨-, h⟩ | ⟨-, h⟩⟩ <;> rw [h] <;> simp [he, hp]
    rcases b4 with ⟨he, h⟩ | ⟨rfl, hle⟩
    · exact .inl ⟨eager he, .inr (a3 ▸ h)⟩
    rcases a4 with ⟨he, h⟩ | ⟨h2, rfl⟩
    · exact .inl ⟨eager he, .inl h⟩
    right
    rw [a3] at hle
    refine ⟨hle, h2, ?_⟩
    rcases r3 with ⟨h, h'⟩ | ⟨h, p, p1, p2, p3, h'⟩
    · exact .inl ⟨h, h'⟩
    · refine .inr ⟨h, p, p1, p2, p3, ?_⟩
      rcases h' with ⟨h', -⟩ | ⟨h', h''⟩ | ⟨h', h''⟩
      · exact absurd h' (by simp)
      · left; rw [hleft] at h'; exact ⟨by simpa using h', h''⟩
      · right; rw [hleft] at h'; exact ⟨by simpa using h', h''⟩

/-! ### The target under `%s` and `%S` -/

theorem convOf_s : convOf (ch! 's') = .s := rfl
theorem convOf_S : convOf (ch! 'S') = .upperS := rfl

/-- A step that writes eager leaves as usual. -/
structure StepOk (step : Alias.Step) (entangled : Directive → JStr → JStr × Option Err) : Prop where
  plain : ∀ {q : Seq}, q.Sane → ∀ st, step false q st = (st ++ q.text, none)
  eager : ∀ {q : Seq}, q.Sane → (∀ a ∈ q.flat, Eager a) → ∀ st, step true q st = (st ++ q.text, none)
  /-- The target's text first: it is copied before anything else is written. -/
  first : ∀ {q : Seq} {cur : JStr} {ps : List Atomic}, q.Sane → q.flat = .lazy cur cur.length :: ps →
    (∀ a ∈ ps, a.WF ∧ Eager a) → step true q cur = (cur ++ q.text, none)
  last : ∀ {q : Seq} {d : Directive} {cur : JStr} {p : Atomic}, q.Sane → q.flat = [p, .lazy cur cur.length] →
    p.WF → Eager p → p.text = leading d cur → p.text ≠ [] → step true q cur = entangled d cur

theorem builder_ok : StepOk Alias.builderStep twice where
  plain := by
    intro q hq st
    simp only [Alias.builderStep, Bool.false_eq_true, if_false, Seq.appendToSB_ok hq]
  eager := by
    intro q hq he st
    simp only [Alias.builderStep, if_true, Seq.leaves_ok hq, bind_ok,
      leavesToBuilder_eager (Seq.flat_wf hq) he, Seq.flat_text]
  first := by
    intro q cur ps hq hf hps
    simp only [Alias.builderStep, if_true, Seq.leaves_ok hq, bind_ok, hf, Alias.leavesToBuilder,
      Alias.leafToBuilder, leavesToBuilder_eager (fun a ha => (hps a ha).1) (fun a ha => (hps a ha).2)]
    rw [← Seq.flat_text, hf]
    simp [Atomic.text]
  last := by
    intro q d cur p hq hf hp he ht _
    have h1 : Alias.leafToBuilder p cur = .ok (cur ++ p.text) := by
      rw [← Atomic.appendToSB_ok hp]
      cases p with
      | lazy o n => exact absurd rfl (he o n)
      | _ => rfl
    have h2 : Alias.leavesToBuilder [p, .lazy cur cur.length] cur =
        .ok (cur ++ leading d cur ++ (cur ++ leading d cur)) := by
      rw [Alias.leavesToBuilder, h1, bind_ok, ht]; rfl
    simp only [Alias.builderStep, if_true, Seq.leaves_ok hq, bind_ok, hf, h2]
    rfl

theorem buffer_ok : StepOk Alias.bufferStep stuck where
  plain := by
    intro q hq st
    obtain ⟨cs, c1, c2⟩ := Seq.appendToCalls_ok hq
    simp only [Alias.bufferStep, Bool.false_eq_true, if_false, c1, c2]
  eager := by
    intro q hq he st
    have := leavesToBuffer_eager (Seq.flat_wf hq) he [] st
    rw [List.append_nil, Seq.flat_text] at this
    simp only [Alias.bufferStep, if_true, Seq.leaves_ok hq, this]
    rfl
  first := by
    intro q cur ps hq hf hps
    have := leavesToBuffer_eager (fun a ha => (hps a ha).1) (fun a ha => (hps a ha).2) [] (cur ++ cur)
    rw [List.append_nil] at this
    simp only [Alias.bufferStep, if_true, Seq.leaves_ok hq, hf, Alias.leavesToBuffer, Alias.leafToBuffer,
      Atomic.getCachedString, this]
    rw [← Seq.flat_text, hf]
    simp [Atomic.text]
  last := by
    intro q d cur p hq hf hp he ht hne
    have := leavesToBuffer_eager (es := [p]) (by simpa using hp) (by simpa using he) [.lazy cur cur.length] cur
    have hlen : ¬ cur.length = (cur ++ leading d cur).length := by
      rw [ht] at hne
      have := List.length_pos_iff.2 hne
      rw [List.length_append]
      omega
    simp only [Alias.bufferStep, if_true, Seq.leaves_ok hq, hf, List.singleton_append] at this ⊢
    rw [this]
    simp only [List.flatMap_cons, List.flatMap_nil, List.append_nil, ht, Alias.leavesToBuffer, Alias.leafToBuffer,
      Atomic.getCachedString, if_neg hlen]
    rfl

theorem self_step {step : Alias.Step} {entangled : Directive → JStr → JStr × Option Err}
    (hs : StepOk step entangled) (env : DateEnv) (jdk : JdkEnv) (id : Identity) {d : Directive} (hp : d.Plain)
    (hc : d.conv = ch! 's' ∨ d.conv = ch! 'S') (cur : JStr) :
    ∃ q, formatterFor env (convOf d.conv) d.context (Alias.Arg.target.traits jdk id cur) = .ok q ∧
      (Entangled d cur → step true q cur = entangled d cur) ∧
      (¬ Entangled d cur → step true q cur = (cur ++ shownText d cur, none)) := by
  obtain ⟨r, r1, r2, r3, r4⟩ := s_target hp jdk id cur
  rcases hc with hc | hc
  · have hsh : shownText d cur = r.text := by
      rw [shownText, if_neg (by rw [hc]; decide), r3]
    refine ⟨r, by rw [hc, convOf_s]; exact r1, ?_, ?_⟩
    · rintro ⟨-, h1, h2, h3, h4⟩
      rcases r4 with ⟨-, h5 | ⟨p, h5, h6⟩⟩ | ⟨-, -, ⟨h5, -⟩ | ⟨-, p, p1, p2, p3, ⟨h6, -⟩ | ⟨-, hf⟩⟩⟩
      · omega
      · have := h2 p h5
        omega
      · omega
      · exact absurd h6 h1
      · refine hs.last r2.sane hf p1 p2 p3 ?_
        rw [p3]
        intro h
        have := congrArg List.length h
        simp only [leading, List.length_replicate, List.length_nil] at this
        omega
    · intro hE
      rw [hsh]
      rcases r4 with ⟨he, -⟩ | ⟨h1, h2, ⟨-, hf⟩ | ⟨h3, p, p1, p2, -, ⟨-, hf⟩ | ⟨h6, -⟩⟩⟩
      · exact hs.eager r2.sane he cur
      · exact hs.first r2.sane hf (by simp)
      · exact hs.first r2.sane hf (by simp [p1, p2])
      · exact absurd ⟨hc, h6, h1, h2, h3⟩ hE
  · obtain ⟨u, u1, u2, u3⟩ := Seq.upperCase_ok r2
    refine ⟨u, ?_, ?_, ?_⟩
    · rw [hc, convOf_S]
      simp only [formatterFor, r1, bind_ok, u1]
    · rintro ⟨h, -⟩
      rw [hc] at h
      exact absurd h (by decide)
    · intro _
      rw [hs.eager u2.sane (eager_upperCase u1), u3, r3, shownText, if_pos hc]

/-! ### Whole calls -/

theorem run_fills {step : Alias.Step} {entangled : Directive → JStr → JStr × Option Err}
    (hs : StepOk step entangled) {dates : DateSyntax} (env : DateEnv) (jdk : JdkEnv) (id : Identity)
    {ps : List Piece} {args : List Alias.Arg} {cur : JStr} {r : JStr × Res Unit}
    (h : Fills dates env entangled ps args cur r) (hok : ∀ d, .dir d ∈ ps → d.Ok dates ∧ d.Plain)
    (hw : ∀ t, .other t ∈ args → t.WF) :
    Alias.run env jdk id step (ps.map Piece.compiled) args cur = r := by
  have value : ∀ (d : Directive), d.Ok dates ∧ d.Plain → ∀ (a : Alias.Arg) (rest : List Alias.Arg) (st : JStr),
      append env (convOf d.conv) d.context ((a :: rest).map (Alias.Arg.traits jdk id st)) =
        (formatterFor env (convOf d.conv) d.context (a.traits jdk id st)).map
          fun q => (q, rest.map (Alias.Arg.traits jdk id st)) := by
    rintro d ⟨-, hp⟩ a rest st
    rw [append_noStar hp.width_ne, afterWidth_noStar hp.prec_ne]
    rfl
  have one : ∀ (a : Alias.Arg) (rest : List Alias.Arg) (f : Alias.Arg → Traits),
      (a :: rest).length - (rest.map f).length = 1 := by simp
  have lone : ∀ (d : Directive), d.Ok dates ∧ d.Plain → ∀ t : Traits, t.WF →
      (∀ s, printf dates env d.text [t] = .ok s → ∃ q, formatterFor env (convOf d.conv) d.context t = .ok q ∧
        q.Sane ∧ q.text = s) ∧
      (∀ e, printf dates env d.text [t] = .error e →
        formatterFor env (convOf d.conv) d.context t = .error e) := by
    intro d hd t ht
    have := printf_plain hd.1 hd.2 env t []
    cases hf : formatterFor env (convOf d.conv) d.context t with
    | error e' =>
      rw [hf] at this
      refine ⟨fun s h => ?_, fun e h => ?_⟩
      · rw [this] at h; cases h
      · rw [this] at h; cases h; rfl
    | ok q =>
      have hq := formatterFor_sane hd.2.precOK ht hf
      rw [hf, bind_ok, Seq.appendToSB_ok hq] at this
      refine ⟨fun s h => ⟨q, rfl, hq, ?_⟩, fun e h => ?_⟩
      · rw [this] at h; cases h; rfl
      · rw [this] at h; cases h
  induction h with
  | done args cur => rfl
  | @lit s ps args cur r h ih =>
    simp only [List.map_cons, Piece.compiled, Alias.run, hs.plain (Seq.wrap_wf s).sane, Seq.wrap_text]
    exact ih (fun d hd => hok d (List.mem_cons_of_mem _ hd)) hw
  | @percent ps args cur r h ih =>
    simp only [List.map_cons, Piece.compiled, Alias.run, hs.plain (Seq.wrap_wf _).sane, Seq.wrap_text]
    exact ih (fun d hd => hok d (List.mem_cons_of_mem _ hd)) hw
  | @self d hc cur he ps args r h ih =>
    obtain ⟨q, q1, -, q3⟩ := self_step hs env jdk id (hok d List.mem_cons_self).2 hc cur
    have hu : Alias.usesSeq (convOf d.conv) = true := by rcases hc with hc | hc <;> rw [hc] <;> rfl
    have hv := value d (hok d List.mem_cons_self) .target args cur
    rw [q1] at hv
    change Alias.run env jdk id step (.dflt (convOf d.conv) d.context :: ps.map Piece.compiled) _ _ = _
    simp only [Alias.run, hv, Except.map, one, hu, Bool.true_and]
    simp only [Nat.sub_self, List.getElem?_cons_zero, Option.map_some, Option.getD_some, Alias.Arg.isTarget,
      q3 he, List.drop_one, List.tail_cons]
    exact ih (fun d hd => hok d (List.mem_cons_of_mem _ hd)) (fun t ht => hw t (List.mem_cons_of_mem _ ht))
  | @selfPadded d cur he ps args st hst r h ih =>
    obtain ⟨q, q1, q2, -⟩ := self_step hs env jdk id (hok d List.mem_cons_self).2 (.inl he.1) cur
    have hu : Alias.usesSeq (convOf d.conv) = true := by rw [he.1]; rfl
    have hv := value d (hok d List.mem_cons_self) .target args cur
    rw [q1] at hv
    change Alias.run env jdk id step (.dflt (convOf d.conv) d.context :: ps.map Piece.compiled) _ _ = _
    simp only [Alias.run, hv, Except.map, one, hu, Bool.true_and]
    simp only [Nat.sub_self, List.getElem?_cons_zero, Option.map_some, Option.getD_some, Alias.Arg.isTarget,
      q2 he, hst, List.drop_one, List.tail_cons]
    exact ih (fun d hd => hok d (List.mem_cons_of_mem _ hd)) (fun t ht => hw t (List.mem_cons_of_mem _ ht))
  | @selfFails d cur he ps args st e hst =>
    obtain ⟨q, q1, q2, -⟩ := self_step hs env jdk id (hok d List.mem_cons_self).2 (.inl he.1) cur
    have hu : Alias.usesSeq (convOf d.conv) = true := by rw [he.1]; rfl
    have hv := value d (hok d List.mem_cons_self) .target args cur
    rw [q1] at hv
    change Alias.run env jdk id step (.dflt (convOf d.conv) d.context :: ps.map Piece.compiled) _ _ = _
    simp only [Alias.run, hv, Except.map, one, hu, Bool.true_and]
    simp only [Nat.sub_self, List.getElem?_cons_zero, Option.map_some, Option.getD_some, Alias.Arg.isTarget,
      q2 he, hst]
  | @other d t s ht ps args cur r h ih =>
    obtain ⟨q, q1, q2, q3⟩ := (lone d (hok d List.mem_cons_self) t (hw t List.mem_cons_self)).1 s ht
    have hv := value d (hok d List.mem_cons_self) (.other t) args cur
    rw [show Alias.Arg.traits jdk id cur (.other t) = t from rfl, q1] at hv
    change Alias.run env jdk id step (.dflt (convOf d.conv) d.context :: ps.map Piece.compiled) _ _ = _
    simp only [Alias.run, hv, Except.map, one]
    simp only [Nat.sub_self, List.getElem?_cons_zero, Option.map_some, Option.getD_some, Alias.Arg.isTarget,
      Bool.and_false, hs.plain q2, q3, List.drop_one, List.tail_cons]
    exact ih (fun d hd => hok d (List.mem_cons_of_mem _ hd)) (fun t ht => hw t (List.mem_cons_of_mem _ ht))
  | @fails d t e ht ps args cur =>
    have q1 := (lone d (hok d List.mem_cons_self) t (hw t List.mem_cons_self)).2 e ht
    have hv := value d (hok d List.mem_cons_self) (.other t) args cur
    rw [show Alias.Arg.traits jdk id cur (.other t) = t from rfl, q1] at hv
    change Alias.run env jdk id step (.dflt (convOf d.conv) d.context :: ps.map Piece.compiled) _ _ = _
    simp only [Alias.run, hv, Except.map]
  | @missing d ps cur =>
    have hp := (hok d List.mem_cons_self).2
    have hv : append env (convOf d.conv) d.context [] = .error (.printf (.missingArgument (shownConv d.conv))) := by
      rw [append_noStar hp.width_ne, afterWidth_noStar hp.prec_ne, ← convOf_char (hok d List.mem_cons_self).1.conv]
      rfl
    change Alias.run env jdk id step (.dflt (convOf d.conv) d.context :: ps.map Piece.compiled) _ _ = _
    simp only [Alias.run, List.map_nil, hv]

theorem format_fills {step : Alias.Step} {entangled : Directive → JStr → JStr × Option Err}
    (hs : StepOk step entangled) {dates : DateSyntax} (env : DateEnv) (jdk : JdkEnv) (id : Identity) {f : JStr}
    {ps : List Piece} (hr : Reading dates f ps) (hp : ∀ d, .dir d ∈ ps → d.Plain)
    {args : List Alias.Arg} (hw : ∀ t, .other t ∈ args → t.WF) {cur : JStr} {r : JStr × Res Unit}
    (h : Fills dates env entangled ps args cur r) : Alias.format dates env jdk id step f args cur = r := by
  unfold Alias.format
  rw [(compile_iff dates f _).2 ⟨ps, hr, rfl⟩]
  exact run_fills hs env jdk id h (fun d hd => ⟨hr.ok _ hd, hp d hd⟩) hw

/-- **C64.** A `StringBuilder` may be both the target and an argument.  Its text under `%s` is what it holds
when the directive is reached, output of the call included; but if that text has two or more characters and
is padded on the left, then the padding counts as part of it and everything appears twice. -/
theorem C64_builder (dates : DateSyntax) (env : DateEnv) (jdk : JdkEnv) (id : Identity) (f : JStr)
    (ps : List Piece) (hr : Reading dates f ps) (hp : ∀ d, .dir d ∈ ps → d.Plain) (args : List Alias.Arg)
    (hw : ∀ t, .other t ∈ args → t.WF) (cur : JStr) (r : JStr × Res Unit)
    (h : Fills dates env twice ps args cur r) :
    Alias.format dates env jdk id Alias.builderStep f args cur = r :=
  format_fills builder_ok env jdk id hr hp hw h

/-- **C64.** The same with a `StringBuffer`, except that the padded text makes the call fail with an
`IllegalStateException` after the padding was written. -/
theorem C64_buffer (dates : DateSyntax) (env : DateEnv) (jdk : JdkEnv) (id : Identity) (f : JStr)
    (ps : List Piece) (hr : Reading dates f ps) (hp : ∀ d, .dir d ∈ ps → d.Plain) (args : List Alias.Arg)
    (hw : ∀ t, .other t ∈ args → t.WF) (cur : JStr) (r : JStr × Res Unit)
    (h : Fills dates env stuck ps args cur r) :
    Alias.format dates env jdk id Alias.bufferStep f args cur = r :=
  format_fills buffer_ok env jdk id hr hp hw h

/-- **C64.** Such an outcome exists whenever the target is only shown with `%s` and `%S`, and only one. -/
theorem C64_defined (dates : DateSyntax) (env : DateEnv) (entangled : Directive → JStr → JStr × Option Err)
    (ps : List Piece) (hs : ∀ d, .dir d ∈ ps → d.conv = ch! 's' ∨ d.conv = ch! 'S') (args : List Alias.Arg)
    (cur : JStr) : ∃! r, Fills dates env entangled ps args cur r := by
  induction ps generalizing args cur with
  | nil => exact ⟨_, .done args cur, fun r h => by cases h; rfl⟩
  | cons p ps ih =>
    have ih := ih fun d hd => hs d (List.mem_cons_of_mem _ hd)
    cases p with
    | lit s =>
      obtain ⟨r, h, hu⟩ := ih args (cur ++ s)
      exact ⟨r, .lit h, fun r' h' => by cases h' with | lit h' => exact hu r' h'⟩
    | percent =>
      obtain ⟨r, h, hu⟩ := ih args (cur ++ js! "%")
      exact ⟨r, .percent h, fun r' h' => by cases h' with | percent h' => exact hu r' h'⟩
    | dir d =>
      have hc := hs d List.mem_cons_self
      cases args with
      | nil => exact ⟨_, .missing, fun r h => by cases h; rfl⟩
      | cons a args =>
        cases a with
        | target =>
          by_cases he : Entangled d cur
          · cases hst : entangled d cur with
            | mk st o =>
              cases o with
              | none =>
                obtain ⟨r, h, hu⟩ := ih args st
                refine ⟨r, .selfPadded he hst h, fun r' h' => ?_⟩
                cases h' with
                | self _ hn => exact absurd he hn
                | selfPadded _ hst' h' => rw [hst] at hst'; cases hst'; exact hu r' h'
                | selfFails _ hst' => rw [hst] at hst'; cases hst'
              | some e =>
                refine ⟨_, .selfFails he hst, fun r' h' => ?_⟩
                cases h' with
                | self _ hn => exact absurd he hn
                | selfPadded _ hst' h' => rw [hst] at hst'; cases hst'
                | selfFails _ hst' => rw [hst] at hst'; cases hst'; rfl
          · obtain ⟨r, h, hu⟩ := ih args (cur ++ shownText d cur)
            refine ⟨r, .self hc he h, fun r' h' => ?_⟩
            cases h' with
            | self _ _ h' => exact hu r' h'
            | selfPadded he' => exact absurd he' he
            | selfFails he' => exact absurd he' he
        | other t =>
          cases ht : printf dates env d.text [t] with
          | ok s =>
            obtain ⟨r, h, hu⟩ := ih args (cur ++ s)
            refine ⟨r, .other ht h, fun r' h' => ?_⟩
            cases h' with
            | other ht' h' => rw [ht] at ht'; cases ht'; exact hu r' h'
            | fails ht' => rw [ht] at ht'; cases ht'
          | error e =>
            refine ⟨_, .fails ht, fun r' h' => ?_⟩
            cases h' with
            | other ht' h' => rw [ht] at ht'; cases ht'
            | fails ht' => rw [ht] at ht'; cases ht'; rfl

/-- Without the target among the arguments the model is the ordinary one. -/
theorem C64_unaliased (dates : DateSyntax) (env : DateEnv) (jdk : JdkEnv) (id : Identity) (f : JStr)
    (apps : List Appender) (hc : Compiler.compile dates f = .ok apps) (args : List Traits) (cur : JStr) :
    (Alias.format dates env jdk id Alias.builderStep f (args.map .other) cur).1 =
      (runSB env apps args cur).target ∧
    (Alias.format dates env jdk id Alias.builderStep f (args.map .other) cur).2 =
      (runSB env apps args cur).result.map fun _ => () := by
  have hmap : ∀ (args : List Traits) (st : JStr),
      (args.map Alias.Arg.other).map (Alias.Arg.traits jdk id st) = args := by
    intro args st
    rw [List.map_map]
    exact List.map_id args
  have key : ∀ (apps : List Appender) (args : List Traits) (cur : JStr),
      Alias.run env jdk id Alias.builderStep apps (args.map .other) cur =
        ((runSB env apps args cur).target, (runSB env apps args cur).result.map fun _ => ()) := by
    intro apps
    induction apps with
    | nil => intro args cur; rfl
    | cons a apps ih =>
      intro args cur
      cases a with
      | fixed v =>
        simp only [Alias.run, Alias.builderStep, Bool.false_eq_true, if_false, wrap_appendToSB, runSB,
          Appender.append]
        exact ih args (cur ++ v)
      | dflt sp ctx =>
        have hr := (Appender.dflt sp ctx).reads env
        have hleft : ∀ q left, append env sp ctx args = .ok (q, left) →
            args.drop (args.length - left.length) = left := by
          intro q left h
          by_cases hl : args.length < (Appender.dflt sp ctx).cost
          · obtain ⟨e, h1, _⟩ := hr.short args hl
            rw [Appender.append, h] at h1; cases h1
          · obtain ⟨r, hr⟩ := hr.enough (args.take (Appender.dflt sp ctx).cost)
              (by rw [List.length_take]; omega)
            have := hr (args.drop (Appender.dflt sp ctx).cost)
            rw [List.take_append_drop, Appender.append, h] at this
            cases r with
            | error e => cases this
            | ok x =>
              simp only [Except.map, Except.ok.injEq, Prod.mk.injEq] at this
              rw [this.2, List.length_drop]
              congr 1
              omega
        simp only [Alias.run, hmap, runSB, Appender.append]
        cases h : append env sp ctx args with
        | error e => rfl
        | ok r =>
          obtain ⟨q, left⟩ := r
          have hown : ∀ n : Nat, ((args.map Alias.Arg.other)[n]?.map Alias.Arg.isTarget).getD false = false := by
            intro n
            rw [List.getElem?_map]
            cases args[n]? <;> rfl
          simp only [List.length_map, hown, Bool.and_false, Alias.builderStep, Bool.false_eq_true, if_false,
            ← List.map_drop, hleft q left h]
          cases q.appendToSB cur with
          | error e => rfl
          | ok sb => exact ih left sb
  unfold Alias.format
  rw [hc]
  simp only [key, and_self]

/-! ### Examples -/

example : Alias.format sampleDates sampleDateEnv sampleJdk someId Alias.builderStep (js! "a%sb%s") [.target, .target]
    (js! "x") = (js! "xaxabxaxab", .ok ()) := by decide +kernel
-- padded: eight characters in a field of five, in a builder
example : Alias.format sampleDates sampleDateEnv sampleJdk someId Alias.builderStep (js! "%5s") [.target] (js! "ab")
    = (js! "ab   ab   ", .ok ()) := by decide +kernel
example : Alias.format sampleDates sampleDateEnv sampleJdk someId Alias.bufferStep (js! "%5s") [.target] (js! "ab")
    = (js! "ab   ", .error .illegalState) := by decide +kernel
example : Alias.format sampleDates sampleDateEnv sampleJdk someId Alias.bufferStep (js! "%-5s%3.1S") [.target, .target]
    (js! "ab") = (js! "abab     A", .ok ()) := by decide +kernel

/-- `%5s`. -/
def fiveWide : Directive := ⟨[], .digits (js! "5"), .absent, ch! 's', none⟩

-- the hypotheses of C64 hold for `%5s` and a builder that holds "ab"
example : Reading sampleDates (js! "%5s") [.dir fiveWide] ∧ fiveWide.Plain ∧
    Fills sampleDates sampleDateEnv twice [.dir fiveWide] [.target] (js! "ab") (js! "ab   ab   ", .ok ()) ∧
    Fills sampleDates sampleDateEnv stuck [.dir fiveWide] [.target] (js! "ab") (js! "ab   ", .error .illegalState) := by
  refine ⟨⟨by decide, ?_, by simp [Separated, MayFollow, IsDateConv, fiveWide]⟩,
    ⟨by simp [fiveWide], by simp [fiveWide]⟩, ?_, ?_⟩
  · intro p hp
    simp only [List.mem_cons, List.not_mem_nil, or_false] at hp
    subst hp
    exact ⟨by decide, by decide, ⟨by decide, by decide, by simp [IsDigit], by decide⟩, trivial, by decide,
      by simp [fiveWide], by simp [fiveWide]⟩
  · exact .selfPadded ⟨by decide, by decide, by simp [fiveWide, Num.precision], by decide, by decide⟩ rfl (.done _ _)
  · exact .selfFails ⟨by decide, by decide, by simp [fiveWide, Num.precision], by decide, by decide⟩ rfl

end FastPrintf
