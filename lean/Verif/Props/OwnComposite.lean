/-
Composites of the user's own classes.
-/
import Verif.Proofs.OwnComposite
import Verif.Props.OwnSeq

namespace FastPrintf
open Own

variable {α : Type}

/-- A history of operations over faithful leaves and honest composites behaves in every observation like the string. -/
theorem C100_observed {ops : LeafOps α} {Good : α → Prop} {text : α → JStr} (F : Faithful ops Good text)
    (h : History α) (hg : h.AllGood ops Good) :
    ∃ t, h.eval ops = .ok t ∧ t.Agrees ops (h.pieces text).flatten := by
  obtain ⟨t, t1, t2, t3, t4⟩ := Compound.eval_spec F h hg
  refine ⟨t, t1, ?_⟩
  rw [← Rope.pieces_text t4]
  exact t2.agrees F t3

/-- A slice has the right characters; the length it reports is that of the part taken from the last piece it
reaches, unless it is the whole. -/
theorem C100_slice {ops : LeafOps α} {Good : α → Prop} {text : α → JStr} (F : Faithful ops Good text)
    (h : History α) (hg : h.AllGood ops Good) {t : Compound α} (ht : h.eval ops = .ok t) :
    (∀ i j : Nat, i ≤ j → j ≤ (h.pieces text).flatten.length →
      ∃ u, t.subSequence ops i j = .ok u ∧
        (∀ sb, u.appendToSB ops sb = .ok (sb ++ Spec.sub (h.pieces text).flatten i j)) ∧
        u.length ops = sliceReports (h.pieces text) i j) ∧
    ∀ i j : Int, ¬ (0 ≤ i ∧ i ≤ j ∧ j ≤ (h.pieces text).flatten.length) →
      ∃ e, t.subSequence ops i j = .error e ∧ ((∀ a, t ≠ .atom a) → e = .indexOutOfBounds) := by
  obtain ⟨t', t1, t2, t3, t4⟩ := Compound.eval_spec F h hg
  rw [ht] at t1; cases t1
  have hx := Rope.pieces_text t4
  refine ⟨fun i j hij hj => ?_, fun i j hij => ?_⟩
  · obtain ⟨e1, e2⟩ := t2.subSequence t3.sane i j
    obtain ⟨q, q1, q2, q3, q4⟩ := Rope.subSequence_ok F t3 i j hij (by rw [hx]; exact hj)
    obtain ⟨u, u1, rfl⟩ := Compound.map_strip_ok (e1.trans q1)
    refine ⟨u, u1, fun sb => ?_, by rw [← Compound.strip_length, q4, sliceReports_congr t4]⟩
    rw [(e2 u u1).appendToSB q2, q2.appendToSB F, q3, hx]
  · obtain ⟨e, h1, h2⟩ := Rope.subSequence_err F t3 i j (by rw [hx]; exact hij)
    refine ⟨e, ?_, fun ha => h2 fun a e => ?_⟩
    · have := (t2.subSequence t3.sane i j).1.trans h1
      cases hc : t.subSequence ops i j with
      | error e' => rw [hc] at this; cases this; rfl
      | ok u => rw [hc] at this; cases this
    · cases t with
      | atom b => exact ha b rfl
      | concat l r n k => cases e
      | array es n => cases e
      | own g f rs => cases e

/-- What `%s` and `%S` print for it. -/
theorem C100_print {ops : LeafOps α} {Good : α → Prop} {text : α → JStr} (F : Faithful ops Good text)
    (h : History α) (hg : h.AllGood ops Good) {t : Compound α} (ht : h.eval ops = .ok t) (up : Bool)
    (ctx : FormatContext)
    (p : Option Nat) (hp : ctx.precision = match p with | some p => (p : Int) | none => UNSET) (sb : JStr) :
    Compound.printS ops ctx up t sb = .ok (sb ++
      (blankFill ctx.flags.leftJustify (ctx.width.toNat - shownLength (h.pieces text) p)
        (shownText (h.pieces text) p)).map (fun c => if up then Spec.upper c else c)) := by
  obtain ⟨t', t1, t2, t3, t4⟩ := Compound.eval_spec F h hg
  rw [ht] at t1; cases t1
  have hpo : SeqFormatter.precOf ctx = p := by
    unfold SeqFormatter.precOf
    cases p with
    | none => simp [hp]
    | some p =>
      have e : UNSET = -1 := rfl
      simp only at hp
      rw [if_neg (by omega), hp]; simp
  have hpk : SeqFormatter.PrecOK ctx := by
    cases p with
    | none => exact .inl hp
    | some p => exact .inr (by simp only at hp; omega)
  rw [Compound.printS_eq F ctx hpk up t2 t3, Rope.printS_spec F ctx hpk up t3 t4, hpo]

/-- A composite that is not honest: `%s` with a width up to its length prints what its iterator delivers, a larger
width what it unfolds into. -/
theorem C100_two_readings {ops : LeafOps α} {Good : α → Prop} {text : α → JStr} (F : Faithful ops Good text)
    (g : Given α) (first : Compound α) (rest : List (Compound α)) (hl : 0 ≤ g.length) (ctx : FormatContext)
    (hp : ctx.precision = UNSET) (sb : JStr) :
    (ctx.width ≤ g.length → (∀ a ∈ g.walk.seen, Good a) →
      Compound.printS ops ctx false (.own g first rest) sb = match g.walk.fault with
        | some e => .error e
        | none => .ok (sb ++ (g.walk.seen.map text).flatten)) ∧
    (g.length < ctx.width → Compound.Fulls (first :: rest) → (∀ a ∈ Compound.flats (first :: rest), Good a) →
      Compound.printS ops ctx false (.own g first rest) sb = .ok (sb ++
        blankFill ctx.flags.leftJustify (ctx.width - g.length).toNat
          ((Compound.flats (first :: rest)).map text).flatten)) := by
  have hw := SeqFormatter.width_toNat ctx
  have hfmt : Compound.formatS ops ctx (.own g first rest) =
      .ok (Compound.spaceJustify ops ctx (.own g first rest)) := by
    rw [Compound.formatS, if_neg]
    · rfl
    · rw [Bool.and_eq_true, SeqFormatter.isPrecisionSet_iff]
      exact fun h => h.1 hp
  have hpr : Compound.printS ops ctx false (.own g first rest) sb =
      (Compound.spaceJustify ops ctx (.own g first rest)).appendToSB ops sb := by
    rw [Compound.printS, hfmt]; rfl
  rw [hpr]
  refine ⟨fun h1 h2 => ?_, fun h1 h2 h3 => ?_⟩
  · have hn : ¬ SeqFormatter.width ctx > (Compound.own g first rest).length ops := by
      change ¬ SeqFormatter.width ctx > g.length
      omega
    rw [Compound.spaceJustify, if_neg hn, Compound.appendToSB, Compound.leaves,
      Rope.appendLeavesSB_eq F _ _ h2, List.flatMap_def]
    · rfl
    · simp
  · have hn : SeqFormatter.width ctx > (Compound.own g first rest).length ops := by
      change SeqFormatter.width ctx > g.length
      omega
    have hg : 1 ≤ (SeqFormatter.width ctx - g.length).toNat := by
      have : SeqFormatter.width ctx > g.length := hn
      omega
    have hr := F.repeated 32 (SeqFormatter.width ctx - g.length).toNat hg
    have hpe : ¬ (Compound.atom (ops.repeated 32 (SeqFormatter.width ctx - g.length).toNat)).isEmpty ops = true := by
      rw [Compound.isEmpty, F.isEmpty _ hr.1, hr.2]
      intro h; have := congrArg List.length h; simp at this; omega
    have hwd : (ctx.width - g.length).toNat = (SeqFormatter.width ctx - g.length).toNat := by omega
    have hof : (Compound.own g first rest).Full := h2
    have hpf : (Compound.atom (ops.repeated 32 (SeqFormatter.width ctx - g.length).toNat)).Full := trivial
    have hfl : (Compound.own g first rest).flat = Compound.flats (first :: rest) := rfl
    rw [Compound.spaceJustify, if_pos hn]
    simp only [Compound.length, SeqFormatter.hasFlag_left]
    by_cases hf : ctx.flags.leftJustify = true
    · simp only [if_pos hf, blankFill]
      rw [Compound.append, if_neg hpe, Compound.mkConcat, Compound.concat0, Compound.appendToSB,
        Compound.leaves_concat _ _ hof hpf, Rope.appendLeavesSB_eq F, hfl, hwd]
      · simp [Rope.atEnd, Compound.flat, hr.2, List.flatMap_def]
      · intro a ha
        rcases List.mem_append.1 ha with ha | ha
        · exact h3 a ha
        · rw [Compound.flat, List.mem_singleton] at ha; subst ha; exact hr.1
      all_goals simp
    · simp only [if_neg hf, blankFill]
      rw [Compound.prepend, if_neg hpe, Compound.mkConcat, Compound.concat0, Compound.appendToSB,
        Compound.leaves_concat _ _ hpf hof, Rope.appendLeavesSB_eq F, hfl, hwd]
      · simp [Rope.atEnd, Compound.flat, hr.2, List.flatMap_def]
      · intro a ha
        rcases List.mem_append.1 ha with ha | ha
        · rw [Compound.flat, List.mem_singleton] at ha; subst ha; exact hr.1
        · exact h3 a ha
      all_goals simp

/-- A negative number of elements: `upperCase` throws `IllegalArgumentException`, and so does `%S`. -/
theorem C100_count (ops : LeafOps α) (g : Given α) (first : Compound α) (rest : List (Compound α))
    (hc : g.elementCount < 0) :
    (Compound.own g first rest).upperCase ops = .error .illegalArgument ∧
    ∀ (ctx : FormatContext) (sb : JStr), ctx.precision = UNSET → ctx.width ≤ g.length → 0 ≤ g.length →
      Compound.printS ops ctx true (.own g first rest) sb = .error .illegalArgument := by
  have hu : (Compound.own g first rest).upperCase ops = .error .illegalArgument := by
    rw [Compound.upperCase, if_pos (show (Compound.own g first rest).elementCount < 0 from hc)]; simp
  refine ⟨hu, fun ctx sb hp h1 h2 => ?_⟩
  have hw := SeqFormatter.width_toNat ctx
  have hfmt : Compound.formatS ops ctx (.own g first rest) = .ok (Compound.own g first rest) := by
    rw [Compound.formatS, if_neg, Compound.spaceJustify, if_neg]
    · rfl
    · change ¬ SeqFormatter.width ctx > g.length
      omega
    · rw [Bool.and_eq_true, SeqFormatter.isPrecisionSet_iff]
      exact fun h => h.1 hp
  rw [Compound.printS, hfmt, bind_ok, if_pos rfl, hu]; rfl

/-- An iterator that delivers nothing: `upperCase` makes a joined sequence without elements, and every composite that
begins with it throws when it is written. -/
theorem C100_nothing (ops : LeafOps α) (g : Given α) (first : Compound α) (rest : List (Compound α))
    (hs : g.walk.seen = []) (hf : g.walk.fault = none) (hc : 0 ≤ g.elementCount) :
    ∃ u, (Compound.own g first rest).upperCase ops = .ok u ∧
      (∀ sb, u.appendToSB ops sb = .ok sb) ∧
      ∀ x sb, (Compound.mkConcat ops u x).appendToSB ops sb = .error .indexOutOfBounds := by
  refine ⟨.array [] g.length, ?_, fun sb => rfl, fun x sb => ?_⟩
  · rw [Compound.upperCase, if_neg (by change ¬ g.elementCount < 0; omega), Compound.leaves, hs, hf]
    · rfl
    · simp
  · rw [Compound.mkConcat, Compound.concat0, Compound.appendToSB, Compound.leaves, Compound.iterate]
    · rfl
    all_goals simp

/-- `toString` of an own composite is whatever its class says, also of the slice that is the whole; a sequence that
contains it, on either side, does not ask for it. -/
theorem C100_shown (ops : LeafOps α) (g : Given α) (first : Compound α) (rest : List (Compound α)) :
    (Compound.own g first rest).toStr ops = g.shown ∧
    (0 < g.length → ∃ u, (Compound.own g first rest).subSequence ops 0 g.length = .ok u ∧ u.toStr ops = g.shown) ∧
    ∀ (x : Compound α) (shown : Res JStr), x.Full → Compound.Fulls (first :: rest) →
      (Compound.mkConcat ops x (.own g first rest)).toStr ops =
        (Compound.mkConcat ops x (.own { g with shown := shown } first rest)).toStr ops ∧
      (Compound.mkConcat ops (.own g first rest) x).toStr ops =
        (Compound.mkConcat ops (.own { g with shown := shown } first rest) x).toStr ops := by
  refine ⟨rfl, fun h => ⟨.own g first rest, ?_, rfl⟩, fun x shown hx hr => ?_⟩
  · rw [Compound.subSequence]
    · have h1 : checkPositionIndexes 0 g.length ((Compound.own g first rest).length ops) = .ok () := by
        change checkPositionIndexes 0 g.length g.length = .ok ()
        unfold checkPositionIndexes
        rw [if_neg (by omega)]
      rw [h1, bind_ok, if_neg (by omega), if_pos ⟨rfl, rfl⟩]; rfl
    · simp
  · have key : ∀ g' : Given α, (Compound.own g' first rest).Full := fun _ => hr
    have two : ∀ (l r : Compound α) (n k : Int), l.Full → r.Full → (Compound.concat l r n k).toStr ops =
        Rope.appendLeavesSB ops none (l.flat ++ r.flat) [] := by
      intro l r n k h1 h2
      have : (Compound.concat l r n k).toStr ops = Rope.appendLeavesSB ops (Compound.concat l r n k).leaves.fault
        (Compound.concat l r n k).leaves.seen [] := rfl
      rw [this, Compound.leaves_concat _ _ h1 h2]
    refine ⟨?_, ?_⟩
    · cases x with
      | concat ll lr n k =>
        obtain ⟨hl, hr'⟩ : ll.Full ∧ lr.Full := hx
        have f : ∀ (g' : Given α), (Compound.concat0 ops lr (.own g' first rest)).Full := fun g' => ⟨hr', key g'⟩
        simp only [Compound.mkConcat]
        exact (two _ _ _ _ hl (f _)).trans (two _ _ _ _ hl (f { g with shown := shown })).symm
      | atom a => simp only [Compound.mkConcat, Compound.concat0]; rw [two _ _ _ _ hx (key _), two _ _ _ _ hx (key _)]; rfl
      | array es n =>
        simp only [Compound.mkConcat, Compound.concat0]; rw [two _ _ _ _ hx (key _), two _ _ _ _ hx (key _)]; rfl
      | own g' f' r' =>
        simp only [Compound.mkConcat, Compound.concat0]; rw [two _ _ _ _ hx (key _), two _ _ _ _ hx (key _)]; rfl
    · simp only [Compound.mkConcat, Compound.concat0]; rw [two _ _ _ _ (key _) hx, two _ _ _ _ (key _) hx]; rfl

/-! The claims are not empty: over leaves that hold their text, a composite of three leaves that unfolds into one of
them and another such composite. -/

/-- Answers for given leaves. -/
def givenTexts (l : List JStr) (shown : JStr) : Given JStr := ⟨l.flatten.length, l.length, ⟨l, none⟩, .ok shown⟩

/-- `bc` and `d`, unfolding into both. -/
def innerOwn : Compound JStr :=
  .own (givenTexts [js! "bc", js! "d"] (js! "Inner@1")) (.atom (js! "bc")) [.atom (js! "d")]

/-- `a`, then the inner one, in a history with two more leaves. -/
def ownHistory : History JStr :=
  .append (.concat (.leaf (js! "<"))
      (.own (givenTexts [js! "a", js! "bc", js! "d"] (js! "Outer@2")) (.atom (js! "a")) [innerOwn]))
    (.leaf (js! ">"))

example : ownHistory.AllGood textLeaves (fun _ => True) :=
  ⟨⟨trivial, ⟨rfl, rfl, by decide, by decide, by
    simp [innerOwn, Compound.Fulls, Compound.Full]⟩, fun _ _ => trivial⟩, trivial⟩
example : (ownHistory.pieces id).flatten = js! "<abcd>" := by decide
example : (do (← ownHistory.eval textLeaves).toStr textLeaves) = .ok (js! "<abcd>") := by decide
example : (do return (← (← ownHistory.eval textLeaves).subSequence textLeaves 1 4).length textLeaves) = .ok 2 := by
  decide
example : (do Compound.printS textLeaves ⟨{}, 8, UNSET, none⟩ true (← ownHistory.eval textLeaves) []) =
    .ok (js! "  <ABCD>") := by
  decide

/-- An own composite shows what its class says. -/
example : innerOwn.toStr textLeaves = .ok (js! "Inner@1") := rfl

/-- A composite whose iterator says `abc` and that unfolds into `xyz`. -/
def twoFacedOwn : Compound JStr := .own (givenTexts [js! "ab", js! "c"] []) (.atom (js! "xyz")) []

example : Compound.printS textLeaves ⟨{}, UNSET, UNSET, none⟩ false twoFacedOwn [] = .ok (js! "abc") ∧
    Compound.printS textLeaves ⟨{}, 5, UNSET, none⟩ false twoFacedOwn [] = .ok (js! "  xyz") := by decide

/-- A composite with number of elements -1. -/
example : (Compound.own (⟨1, -1, ⟨[js! "a"], none⟩, .ok []⟩ : Given JStr) (.atom (js! "a")) []).upperCase textLeaves =
    .error .illegalArgument := rfl

/-- A composite that delivers nothing, in upper case and with something after it. -/
example : (do
    let u ← (Compound.own (givenTexts [] []) (.atom []) []).upperCase textLeaves
    (u.append textLeaves (.atom (js! "x"))).toStr textLeaves) = .error .indexOutOfBounds := by decide

end FastPrintf
