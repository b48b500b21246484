/-
Whole calls: the code with `int` lengths prints what the code with unbounded lengths prints, whenever that
is short enough to be a Java string.
-/
import Verif.Proofs.IntGeneral

namespace FastPrintf
namespace Narrow

open FastPrintf.Seq BigDec Spec

/-- The layouts `%g` asks for are shorter than 2³¹ units. -/
def ShortGeneral (f : FloatForm) : Prop :=
  ∀ P : Nat, 1 ≤ P → P ≤ 65536 → (f.isNaN || f.isInfinite) = false → ∀ l, f.generalLayout P = .ok l → Fits l.mantissa

/-- Two arguments that differ at most in how their numbers are laid out. -/
structure TraitsMatch (v v' : Traits) : Prop where
  int : v'.asInt = v.asInt
  intForm : v'.asIntForm = v.asIntForm
  temporal : v'.asTemporal = v.asTemporal
  seq : v'.asSeq = v.asSeq
  char : v'.asChar = v.asChar
  ref : v'.ref = v.ref
  wf : v.WF
  counted : ∀ q, v.asSeq = .ok q → q.Counted ∧ q.elementCount ≤ 2147483646
  float : (∃ f f', v.asFloatForm = .ok f ∧ v'.asFloatForm = .ok f' ∧ Matches f f' ∧ FormGood f ∧ ShortGeneral f) ∨
    (∃ e, v.asFloatForm = .error e ∧ v'.asFloatForm = .error e)

theorem Good.fits {k : Int} {s : Seq} (h : Good k s) (hk : k ≤ 2147483647) (hl : s.text.length ≤ 2147483647) :
    Fits s := ⟨by have := h.short; omega, by have := h.few; omega⟩

theorem upper_eq {k : Int} {s : Seq} (h : Good k s) {r : Seq} (hr : s.upperCase = .ok r) : upperCase s = .ok r := by
  cases s with
  | atom a => exact hr
  | array es n => exact hr
  | concat l r n k =>
    have hc := count_nonneg h.counted
    have : ¬ (k < 0) := by
      have q : (Seq.concat l r n k).elementCount = k := rfl
      omega
    simp only [upperCase, if_neg this]
    exact hr

theorem gPrecision_nat {ctx : FormatContext} (h : Ready ctx) :
    ∃ P : Nat, SeqFormatter.gPrecision ctx = P ∧ 1 ≤ P ∧ P ≤ 65536 := by
  have h1 := SeqFormatter.gPrecision_pos h.precOK
  have h2 : SeqFormatter.gPrecision ctx ≤ 65536 := by
    have e1 : UNSET = -1 := rfl
    unfold SeqFormatter.gPrecision
    have := h.prec
    split_ifs <;> omega
  exact ⟨(SeqFormatter.gPrecision ctx).toNat, by omega, by omega, by omega⟩

/-- The conversions written with a small letter, of which `upperCase` makes the others. -/
def lower : Specifier → Specifier
  | .upperX => .x | .upperF => .f | .upperE => .e | .upperG => .g | .upperA => .a | .upperS => .s | .upperT => .t
  | sp => sp

theorem lower_eq {env : DateEnv} {sp : Specifier} {ctx : FormatContext} {v v' : Traits} (hsp : lower sp = sp)
    (hp : Ready ctx) (hm : TraitsMatch v v') {r : Seq} (h : DefaultAppender.formatterFor env sp ctx v = .ok r)
    (hr : Fits r) : formatterFor env sp ctx v' = .ok r := by
  have int : ∀ {g g' : IntForm → Res Seq}, (∀ i, g i = .ok r → g' i = .ok r) →
      (v.asIntForm >>= g) = .ok r → (v'.asIntForm >>= g') = .ok r := by
    intro g g' hg hs
    obtain ⟨i, h1, h2⟩ := bind_eq_ok.1 hs
    rw [hm.intForm, h1, bind_ok, hg i h2]
  have flt : ∀ {g g' : FloatForm → Res Seq},
      (∀ i i', i.WF → Matches i i' → ShortGeneral i → g i = .ok r → g' i' = .ok r) →
      (v.asFloatForm >>= g) = .ok r → (v'.asFloatForm >>= g') = .ok r := by
    intro g g' hg hs
    obtain ⟨i, h1, h2⟩ := bind_eq_ok.1 hs
    rcases hm.float with ⟨f, f', a1, a2, a3, a4, a5⟩ | ⟨e, a1, a2⟩
    · rw [h1] at a1; cases a1
      rw [a2, bind_ok, hg i f' (hm.wf.float _ h1) a3 a5 h2]
    · rw [h1] at a1; cases a1
  have hq := hp.precOK
  cases sp with
  | d => exact int (fun _ hs => d_eq hs hr) h
  | u => exact int (fun _ hs => unsigned_eq hs hr) h
  | o => exact int (fun _ hs => unsigned_eq hs hr) h
  | x => exact int (fun _ hs => unsigned_eq hs hr) h
  | upperX => cases hsp
  | f => exact flt (fun _ _ hi hi' _ hs => f_eq hq hi hi' hs hr) h
  | upperF => cases hsp
  | e => exact flt (fun _ _ hi hi' _ hs => e_eq hq hi hi' hs hr) h
  | upperE => cases hsp
  | g =>
    refine flt (fun i _ hi hi' hg hs => g_eq hq hi hi' ?_ hs hr) h
    obtain ⟨P, p1, p2, p3⟩ := gPrecision_nat hp
    rw [p1]
    exact hg P p2 p3
  | upperG => cases hsp
  | a => exact flt (fun _ _ hi hi' _ hs => a_eq hq hi hi' hs hr) h
  | upperA => cases hsp
  | c =>
    have e : c ctx v' = c ctx v := by unfold c; rw [hm.char]
    exact e.trans (c_eq h hr)
  | s =>
    have e : s ctx v' = s ctx v := by unfold s; rw [hm.seq]
    exact e.trans (s_eq hq hm.wf (fun q hq => (hm.counted q hq).1) h hr)
  | upperS => cases hsp
  | t =>
    have e : t env ctx v' = t env ctx v := by unfold t; rw [hm.temporal]
    exact e.trans (t_eq h hr)
  | upperT => cases hsp
  | n => exact h
  | p =>
    have e : p ctx v' = p ctx v := by unfold p; rw [hm.ref]
    exact e.trans (p_eq h hr)
  | percent => exact h

theorem wide_good {env : DateEnv} {sp : Specifier} {ctx : FormatContext} {v v' : Traits}
    (hp : Ready ctx) (hm : TraitsMatch v v') {r : Seq} (h : DefaultAppender.formatterFor env sp ctx v = .ok r) :
    Good 2147483647 r := by
  refine good_formatter (k := 2147483646) hp.precOK hm.wf ?_ hm.counted (by omega) h
  intro f hf
  rcases hm.float with ⟨f0, f', a1, a2, a3, a4, a5⟩ | ⟨e, a1, a2⟩
  · rw [hf] at a1; cases a1; exact a4
  · rw [hf] at a1; cases a1

theorem upper_split {env : DateEnv} {sp : Specifier} (hsp : lower sp ≠ sp) (ctx : FormatContext) (v : Traits) :
    DefaultAppender.formatterFor env sp ctx v =
      (DefaultAppender.formatterFor env (lower sp) ctx v >>= fun s => s.upperCase) ∧
    formatterFor env sp ctx v = (formatterFor env (lower sp) ctx v >>= fun s => upperCase s) := by
  cases sp with
  | upperX | upperF | upperE | upperG | upperA =>
    simp only [DefaultAppender.formatterFor, formatterFor, lower, bind_assoc, and_self]
  | upperS | upperT => exact ⟨rfl, rfl⟩
  | _ => exact absurd rfl hsp

/-- One conversion: what the code with unbounded lengths prints, the code with `int` lengths prints too, if it is
short enough for a string. -/
theorem formatterFor_eq {env : DateEnv} {sp : Specifier} {ctx : FormatContext} {v v' : Traits}
    (hp : Ready ctx) (hm : TraitsMatch v v') {r : Seq} (h : DefaultAppender.formatterFor env sp ctx v = .ok r)
    (hr : r.text.length ≤ 2147483647) : formatterFor env sp ctx v' = .ok r := by
  by_cases hsp : lower sp = sp
  · exact lower_eq hsp hp hm h ((wide_good hp hm h).fits le_rfl hr)
  · rw [(upper_split hsp ctx v).1] at h
    obtain ⟨s, h1, h2⟩ := bind_eq_ok.1 h
    have hg := wide_good hp hm h1
    have hl : s.text.length ≤ 2147483647 := by
      obtain ⟨u, u1, u2, u3, u4⟩ := upperCase_sane hg.sane
      rw [h2] at u1; cases u1
      rwa [u3, List.length_map] at hr
    have hll : lower (lower sp) = lower sp := by cases sp <;> rfl
    rw [(upper_split hsp ctx v').2, lower_eq hll hp hm h1 (hg.fits le_rfl hl), bind_ok]
    exact upper_eq hg h2

theorem nextInt_match {sp : Specifier} {args args' rest : List Traits} {i : Int} (hm : List.Forall₂ TraitsMatch args args')
    (h : DefaultAppender.nextInt sp args = .ok (i, rest)) :
    ∃ rest', DefaultAppender.nextInt sp args' = .ok (i, rest') ∧ List.Forall₂ TraitsMatch rest rest' := by
  cases hm with
  | nil => cases h
  | @cons v v' _ tl h1 h2 =>
    unfold DefaultAppender.nextInt at h ⊢
    simp only [h1.int]
    obtain ⟨j, hj, h⟩ := bind_eq_ok.1 h
    cases h
    exact ⟨tl, by rw [hj]; rfl, h2⟩

theorem starWidth_match {sp : Specifier} {ctx c : FormatContext} {args args' rest : List Traits}
    (hm : List.Forall₂ TraitsMatch args args') (h : DefaultAppender.starWidth sp ctx args = .ok (c, rest)) :
    ∃ rest', DefaultAppender.starWidth sp ctx args' = .ok (c, rest') ∧ List.Forall₂ TraitsMatch rest rest' := by
  unfold DefaultAppender.starWidth at h ⊢
  by_cases hc : ctx.isPrecedingWidth
  · rw [if_pos hc] at h ⊢
    obtain ⟨⟨w, as⟩, h1, h⟩ := bind_eq_ok.1 h
    obtain ⟨r', h2, h3⟩ := nextInt_match hm h1
    rw [h2]
    simp only [bind_ok] at h ⊢
    by_cases hw : w ≥ 0
    · simp only [if_pos hw] at h ⊢
      obtain ⟨c', h4, h⟩ := bind_eq_ok.1 h
      cases h
      exact ⟨r', by rw [h4]; rfl, h3⟩
    · simp only [if_neg hw] at h ⊢
      obtain ⟨c', h4, h⟩ := bind_eq_ok.1 h
      cases h
      exact ⟨r', by rw [h4]; rfl, h3⟩
  · rw [if_neg hc] at h ⊢
    cases h
    exact ⟨_, rfl, hm⟩

theorem starPrecision_match {sp : Specifier} {ctx c : FormatContext} {args args' rest : List Traits}
    (hm : List.Forall₂ TraitsMatch args args') (h : DefaultAppender.starPrecision sp ctx args = .ok (c, rest)) :
    ∃ rest', DefaultAppender.starPrecision sp ctx args' = .ok (c, rest') ∧ List.Forall₂ TraitsMatch rest rest' := by
  unfold DefaultAppender.starPrecision at h ⊢
  by_cases hc : ctx.isPrecedingPrecision
  · rw [if_pos hc] at h ⊢
    obtain ⟨⟨w, as⟩, h1, h⟩ := bind_eq_ok.1 h
    obtain ⟨r', h2, h3⟩ := nextInt_match hm h1
    rw [h2]
    simp only [bind_ok] at h ⊢
    obtain ⟨c', h4, h⟩ := bind_eq_ok.1 h
    cases h
    exact ⟨r', by rw [h4]; rfl, h3⟩
  · rw [if_neg hc] at h ⊢
    cases h
    exact ⟨_, rfl, hm⟩

theorem appendOne_eq {env : DateEnv} {a : Appender} (ha : a.Stored) {args args' rest : List Traits}
    (hm : List.Forall₂ TraitsMatch args args') {q : Seq} (h : a.append env args = .ok (q, rest))
    (hq : q.text.length ≤ 2147483647) :
    ∃ rest', appendOne env a args' = .ok (q, rest') ∧ List.Forall₂ TraitsMatch rest rest' := by
  cases a with
  | fixed value => cases h; exact ⟨_, rfl, hm⟩
  | dflt sp ctx =>
    simp only [Appender.append, DefaultAppender.append] at h
    simp only [appendOne, appendDefault]
    obtain ⟨⟨c1, r1⟩, h1, h⟩ := bind_eq_ok.1 h
    obtain ⟨⟨c2, r2⟩, h2, h⟩ := bind_eq_ok.1 h
    obtain ⟨r1', k1, m1⟩ := starWidth_match hm h1
    obtain ⟨r2', k2, m2⟩ := starPrecision_match m1 h2
    have hr := ready_of_stars ha.1 ha.2 h1 h2
    rw [k1]; simp only [bind_ok]
    rw [k2]; simp only [bind_ok]
    cases m2 with
    | nil => cases h
    | @cons v v' tl tl' x y =>
      simp only at h ⊢
      obtain ⟨s, h3, h⟩ := bind_eq_ok.1 h
      cases h
      exact ⟨tl', by rw [formatterFor_eq hr x h3 hq]; rfl, y⟩

theorem wf_of_match {args args' : List Traits} (hm : List.Forall₂ TraitsMatch args args') : ∀ v ∈ args, v.WF := by
  induction hm with
  | nil => simp
  | cons h _ ih =>
    intro v hv
    rcases List.mem_cons.1 hv with rfl | hv
    · exact h.wf
    · exact ih v hv

theorem runSB_eq {env : DateEnv} {apps : List Appender} (ha : ∀ a ∈ apps, a.Stored) {args args' rest : List Traits}
    (hm : List.Forall₂ TraitsMatch args args') {sb t : JStr} (h : FastPrintf.runSB env apps args sb = ⟨t, .ok rest⟩)
    (ht : t.length ≤ 2147483647) :
    ∃ rest', runSB env apps args' sb = ⟨t, .ok rest'⟩ ∧ List.Forall₂ TraitsMatch rest rest' := by
  induction apps generalizing args args' sb with
  | nil => cases h; exact ⟨_, rfl, hm⟩
  | cons a apps ih =>
    unfold FastPrintf.runSB at h
    unfold runSB
    cases h1 : a.append env args with
    | error e => rw [h1] at h; cases h
    | ok x =>
      obtain ⟨q, r⟩ := x
      obtain ⟨hs, _⟩ := Appender.append_sane (ha a (by simp)) (wf_of_match hm) h1
      rw [h1] at h
      simp only [Seq.appendToSB_ok hs] at h
      have hl : q.text.length ≤ t.length := by
        have h' := h
        rw [runSB_prefix] at h'
        have h'' := congrArg Outcome.target h'
        simp only at h''
        rw [← h'']
        simp only [List.length_append]; omega
      obtain ⟨r', k1, m1⟩ := appendOne_eq (ha a (by simp)) hm h1 (by omega)
      rw [k1]
      simp only [Seq.appendToSB_ok hs]
      exact ih (fun b hb => ha b (List.mem_cons_of_mem _ hb)) m1 h

theorem short_double (bits : BitVec 64) : ShortGeneral (FloatForm.ofDouble bits) := by
  intro P h1 h2 hf l hl
  have hfin : finite bits := (finite_iff bits).2 hf
  have hs := double_general_short hfin h1 h2 hl
  have hg : LayoutGood l := good_double_general hl
  exact ⟨by omega, by have := hg.1.few; omega⟩

theorem same_match {v : Traits} (hw : v.WF) (hc : ∀ q, v.asSeq = .ok q → q.Counted ∧ q.elementCount ≤ 2147483646)
    (hf : ∀ f, v.asFloatForm = .ok f → ∃ bits, f = FloatForm.ofDouble bits) : TraitsMatch v v := by
  refine ⟨rfl, rfl, rfl, rfl, rfl, rfl, hw, hc, ?_⟩
  cases h : v.asFloatForm with
  | error e => exact .inr ⟨e, rfl, rfl⟩
  | ok f =>
    obtain ⟨bits, rfl⟩ := hf f h
    exact .inl ⟨_, _, rfl, rfl, matches_double bits, formGood_double bits, short_double bits⟩

theorem big_match {v : Traits} {u s : Int} (hs : IntScale s) (hu : (toRadix 10 u.natAbs).length ≤ 2147000000)
    (hw : v.WF) (hc : ∀ q, v.asSeq = .ok q → q.Counted ∧ q.elementCount ≤ 2147483646)
    (hf : v.asFloatForm = .ok (FloatForm.ofBigDecimal u s)) :
    TraitsMatch v { v with asFloatForm := .ok (ofBigDecimal u s) } := by
  refine ⟨rfl, rfl, rfl, rfl, rfl, rfl, hw, hc, .inl ⟨_, _, hf, rfl, matches_bigDecimal hs, formGood_bigDecimal hs, ?_⟩⟩
  intro P h1 h2 _ l hl
  have hg := formGood_bigDecimal (u := u) hs P l (by omega) (.inl hl)
  exact ⟨bigDecimal_general_short h1 h2 hu hl, by have := hg.1.few; omega⟩

end Narrow

/-- An argument whose lengths are in the range the JDK grants: a `BigInteger` has at most 646456993 decimal digits,
the scale of a `BigDecimal` is an `int`, and a rope has the lengths and leaf counts it claims, with fewer than 2³¹ − 1
leaves.  Left out are the caller's own implementations of `FormatTraits`. -/
def Spec.Modest : Entry → Prop
  | .ref (.seq q _) => q.WF ∧ q.Counted ∧ q.elementCount ≤ 2147483646
  | .ref (.bigInteger v _) => (toRadix 10 v.natAbs).length ≤ 646456993
  | .ref (.bigDecimal u s _) => (toRadix 10 u.natAbs).length ≤ 646456993 ∧ -2147483648 ≤ s ∧ s ≤ 2147483647
  | .ref (.traits _) => False
  | _ => True

theorem Spec.Modest.wellBehaved {e : Entry} (h : Modest e) : WellBehaved e := by
  unfold Modest at h
  unfold WellBehaved
  split at h <;> first | exact h.1 | exact h.elim | skip
  all_goals split <;> first | trivial | simp_all

namespace Narrow

open Spec

theorem prim_match (jdk : JdkEnv) (r : RefSlot) (p : Prim) : TraitsMatch (p.traits jdk r) (p.traits jdk r) := by
  refine same_match (Prim.traits_wf jdk r p) ?_ ?_
  · intro q hq
    cases p with
    | int v | long v =>
      obtain ⟨a, _, hq⟩ := bind_eq_ok.1 hq
      cases hq
      exact ⟨trivial, by show (1 : Int) ≤ _; omega⟩
    | _ => cases hq; exact ⟨trivial, by show (1 : Int) ≤ _; omega⟩
  · intro f hf
    cases p <;> cases hf <;> exact ⟨_, rfl⟩

theorem modest_match (jdk : JdkEnv) {e : Entry} (h : Modest e) : TraitsMatch (e.toTraits jdk) (toTraits jdk e) := by
  have hw := h.wellBehaved.wf jdk
  cases e with
  | prim p => exact prim_match jdk _ p
  | ref o =>
    cases o with
    | null => exact same_match hw (by rintro q ⟨⟩; exact ⟨trivial, by show (1 : Int) ≤ _; omega⟩) (by rintro f ⟨⟩)
    | boxed p id => exact prim_match jdk _ p
    | string s id =>
      refine same_match hw (by rintro q ⟨⟩; exact ⟨trivial, by show (1 : Int) ≤ _; omega⟩) ?_
      intro f hf
      simp only [Entry.toTraits, Obj.toTraits, charSequenceTraits] at hf
      split at hf <;> cases hf
      exact ⟨_, rfl⟩
    | seq q id =>
      refine same_match hw (by rintro q ⟨⟩; exact h.2) ?_
      intro f hf
      obtain ⟨s, _, hf⟩ := bind_eq_ok.1 hf
      simp only [charSequenceTraits] at hf
      split at hf <;> cases hf
      exact ⟨_, rfl⟩
    | charSeq s id =>
      refine same_match hw ?_ ?_
      · intro q hq
        obtain ⟨a, _, hq⟩ := bind_eq_ok.1 hq
        cases hq; exact ⟨trivial, by show (1 : Int) ≤ _; omega⟩
      · intro f hf
        simp only [Entry.toTraits, Obj.toTraits, charSequenceTraits] at hf
        split at hf <;> cases hf
        exact ⟨_, rfl⟩
    | bigInteger v id =>
      have h' : (toRadix 10 v.natAbs).length ≤ 646456993 := h
      exact big_match ⟨by omega, by omega⟩ (by omega) hw
        (by rintro q ⟨⟩; exact ⟨trivial, by show (1 : Int) ≤ _; omega⟩) rfl
    | bigDecimal u s id =>
      have h' : (toRadix 10 u.natAbs).length ≤ 646456993 := h.1
      exact big_match h.2 (by omega) hw
        (by rintro q ⟨⟩; exact ⟨trivial, by show (1 : Int) ≤ _; omega⟩) rfl
    | temporal t text id =>
      refine same_match hw ?_ ?_
      · intro q hq
        obtain ⟨x, _, hq⟩ := bind_eq_ok.1 hq
        cases hq; exact ⟨trivial, by show (1 : Int) ≤ _; omega⟩
      · intro f hf
        simp only [Entry.toTraits, Obj.toTraits, temporalTraits] at hf
        split at hf <;> cases hf
        exact ⟨_, rfl⟩
    | traits t => exact h.elim
    | object kind text id =>
      refine same_match hw ?_ ?_
      · intro q hq
        obtain ⟨x, _, hq⟩ := bind_eq_ok.1 hq
        cases hq; exact ⟨trivial, by show (1 : Int) ≤ _; omega⟩
      · intro f hf
        simp only [Entry.toTraits, Obj.toTraits, objectTraits] at hf
        split at hf <;> cases hf <;> exact ⟨_, rfl⟩

theorem modest_all (jdk : JdkEnv) {es : List Entry} (h : ∀ e ∈ es, Modest e) :
    List.Forall₂ TraitsMatch (es.map (Entry.toTraits jdk)) (es.map (toTraits jdk)) := by
  induction es with
  | nil => exact .nil
  | cons e es ih => exact .cons (modest_match jdk (h e (by simp))) (ih fun e he => h e (List.mem_cons_of_mem _ he))

/-- Whole calls. -/
theorem printf_narrow {dates : DateSyntax} {env : DateEnv} (jdk : JdkEnv) {format : JStr} {es : List Entry}
    (h : ∀ e ∈ es, Modest e) {t : JStr} (hp : FastPrintf.printf dates env format (es.map (Entry.toTraits jdk)) = .ok t)
    (ht : t.length ≤ 2147483647) : printf dates env format (es.map (toTraits jdk)) = .ok t := by
  unfold FastPrintf.printf at hp
  unfold printf
  obtain ⟨apps, h1, h2⟩ := bind_eq_ok.1 hp
  obtain ⟨ps, hr, rfl⟩ := (compile_iff _ _ _).1 h1
  rw [h1, bind_ok]
  rw [formatWith_eq] at h2
  rcases hrun : FastPrintf.runSB env (ps.map Piece.compiled) (es.map (Entry.toTraits jdk)) [] with ⟨t', r⟩
  rw [hrun] at h2
  cases r with
  | error e => cases h2
  | ok rest =>
    cases h2
    have hst : ∀ a ∈ ps.map Piece.compiled, a.Stored := by
      intro a ha
      obtain ⟨p, hp, rfl⟩ := List.mem_map.1 ha
      exact Piece.compiled_stored (hr.ok p hp)
    obtain ⟨rest', k, _⟩ := runSB_eq hst (modest_all jdk h) hrun ht
    rw [k]

end Narrow
end FastPrintf
