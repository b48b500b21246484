/-
Sequences that were cut with `subSequence` any number of times.
-/
import Verif.Spec.Slices
import Verif.Props.Rope
import Verif.Proofs.OwnPrint
import Verif.Proofs.Cut
import Verif.Proofs.SeqFormatter

namespace FastPrintf
open Spec Own

namespace Spec.Sliced

theorem parts_nonEmpty (l : List JStr) (i j : Nat) : parts (nonEmpty l) i j = parts l i j := by
  induction l generalizing i j with
  | nil => rfl
  | cons t l ih =>
    unfold nonEmpty at ih ⊢
    by_cases h : t = []
    · subst h
      rw [List.filter_cons_of_neg (by simp), ih]
      simp [parts]
    · rw [List.filter_cons_of_pos (by simpa using h)]
      simp only [parts, ih]

theorem parts_congr {l m : List JStr} (h : nonEmpty l = nonEmpty m) (i j : Nat) : parts l i j = parts m i j := by
  rw [← parts_nonEmpty l, h, parts_nonEmpty]

theorem parts_flatten (l : List JStr) (i j : Nat) (hij : i < j) : (parts l i j).flatten = sub l.flatten i j := by
  induction l generalizing i j with
  | nil => simp [parts, sub]
  | cons t l ih =>
    rw [parts, List.flatten_cons, Seq.sub_append _ _ _ _ hij.le]
    by_cases h1 : i < t.length
    · rw [if_pos h1]
      by_cases h2 : j ≤ t.length
      · rw [if_pos h2, show min j t.length = j by omega, show j - t.length = 0 by omega]
        simp [sub]
      · rw [if_neg h2, List.flatten_cons, ih 0 _ (by omega), show min j t.length = t.length by omega,
          show i - t.length = 0 by omega]
    · rw [if_neg h1]
      rw [show sub t i (min j t.length) = [] by unfold sub; rw [List.drop_eq_nil_of_le (by omega)]; simp]
      by_cases h2 : i - t.length < j - t.length
      · rw [ih _ _ h2]; rfl
      · omega

theorem parts_good (l : List JStr) (i j : Nat) (hij : i < j) (hj : j ≤ l.flatten.length) :
    parts l i j ≠ [] ∧ ∀ t ∈ parts l i j, t ≠ [] := by
  induction l generalizing i j with
  | nil => simp at hj; omega
  | cons t l ih =>
    rw [List.flatten_cons, List.length_append] at hj
    rw [parts]
    have hs : ∀ k, i < k → k ≤ t.length → sub t i k ≠ [] := by
      intro k h1 h2 h3
      have := congrArg List.length h3
      simp [sub] at this; omega
    by_cases h1 : i < t.length
    · rw [if_pos h1]
      by_cases h2 : j ≤ t.length
      · rw [if_pos h2]
        refine ⟨by simp, ?_⟩
        intro u hu; rw [List.mem_singleton.1 hu]; exact hs j hij h2
      · rw [if_neg h2]
        refine ⟨by simp, ?_⟩
        intro u hu
        rcases List.mem_cons.1 hu with rfl | hu
        · exact hs _ h1 le_rfl
        · exact (ih 0 _ (by omega) (by omega)).2 u hu
    · rw [if_neg h1]; exact ih _ _ (by omega) (by omega)

theorem lastLength_bounds {ps : List JStr} (h : ps ≠ []) (hg : ∀ t ∈ ps, t ≠ []) :
    1 ≤ lastLength ps ∧ lastLength ps ≤ ps.flatten.length := by
  have hl : ps.getLast?.getD [] = ps.getLast h := by rw [List.getLast?_eq_some_getLast h]; rfl
  rw [lastLength, hl]
  have h1 := hg _ (List.getLast_mem h)
  have h2 := List.dropLast_append_getLast h
  constructor
  · exact List.length_pos_iff.2 h1
  · conv_rhs => rw [← h2]
    simp

end Spec.Sliced

open Spec.Sliced in
/-- What the loop of `subSequence` collects. -/
theorem Seq.subLoop_parts (es : List Atomic) (h : ∀ a ∈ es, a.WF) (i j : Nat) (buf : List Atomic)
    (hij : i < j) (hj : j ≤ (es.flatMap Atomic.text).length) :
    ∃ ps s' e', Seq.subLoop es i j buf = .ok (buf ++ ps, s', e') ∧ (∀ a ∈ ps, a.WF) ∧
      ps.map Atomic.text = parts (es.map Atomic.text) i j ∧
      e' - s' = lastLength (parts (es.map Atomic.text) i j) := by
  induction es generalizing i j buf with
  | nil => simp at hj; omega
  | cons a es ih =>
    have ha := h a (by simp)
    have hes : ∀ b ∈ es, b.WF := fun b hb => h b (List.mem_cons_of_mem _ hb)
    have hl := Atomic.length_text ha
    simp only [List.flatMap_cons, List.length_append] at hj
    unfold Seq.subLoop
    simp only [List.map_cons, parts]
    by_cases h1 : i < a.text.length
    · rw [if_pos (by omega), if_pos h1]
      by_cases h2 : j ≤ a.text.length
      · rw [if_pos (by omega), if_pos h2]
        obtain ⟨b, b1, b2, b3⟩ := Atomic.subSequence_ok ha (i := i) (j := j) (by omega)
        refine ⟨[b], i, j, by rw [b1]; rfl, by simpa using b2, by simpa using b3, ?_⟩
        simp [lastLength, sub]; omega
      · rw [if_neg (by omega), if_neg h2]
        obtain ⟨b, b1, b2, b3⟩ := Atomic.subSequence_ok ha (i := i) (j := a.length) (by omega)
        obtain ⟨ps, s', e', g1, g2, g3, g4⟩ := ih hes 0 (j - a.text.length) (buf ++ [b]) (by omega) (by omega)
        have hjj : ((j - a.text.length : Nat) : Int) = j - a.length := by omega
        have hne : parts (es.map Atomic.text) 0 (j - a.text.length) ≠ [] :=
          (parts_good _ _ _ (by omega) (by rw [← List.flatMap_def]; omega)).1
        refine ⟨b :: ps, s', e', ?_, ?_, ?_, ?_⟩
        · rw [hjj] at g1
          rw [b1, bind_ok, show (0 : Int) = ((0 : Nat) : Int) from rfl, g1]; simp
        · intro x hx
          rcases List.mem_cons.1 hx with rfl | hx
          · exact b2
          · exact g2 x hx
        · rw [List.map_cons, g3, b3, hl]; rfl
        · rw [g4, lastLength, lastLength, List.getLast?_cons_of_ne_nil hne]
    · rw [if_neg (by omega), if_neg h1]
      have hii : ((i - a.text.length : Nat) : Int) = i - a.length := by omega
      have hjj : ((j - a.text.length : Nat) : Int) = j - a.length := by omega
      rw [← hii, ← hjj]
      exact ih hes _ _ buf (by omega) (by omega)

/-- The sequence is as described: consistent leaves with these texts, and this length. -/
structure Spec.Sliced.Rep (x : Sliced) (q : Seq) : Prop where
  sane : q.Sane
  pieces : nonEmpty (leafTexts q) = nonEmpty x.pieces
  length : q.length = x.reports
  le : x.reports ≤ x.text.length
  leaf : (∃ a, q = .atom a) → x.Exact

namespace Spec.Sliced

theorem Rep.text {x : Sliced} {q : Seq} (h : x.Rep q) : q.text = x.text := by
  rw [← Seq.leafTexts_text, Sliced.text, ← nonEmpty_flatten, h.pieces, nonEmpty_flatten]

theorem Rep.zero {x : Sliced} {q : Seq} (h : x.Rep q) : x.reports = 0 ↔ x.text = [] := by
  constructor
  · intro h0; rw [← h.text]; exact h.sane.text_of_length_zero (by rw [h.length, h0]; rfl)
  · intro h0; have := h.le; rw [h0] at this; simpa using this

theorem Rep.charAt {x : Sliced} {q : Seq} (h : x.Rep q) (i : Nat) (c : JChar) (hi : i < x.reports)
    (hc : x.text[i]? = some c) : q.charAt i = .ok c := by
  have hlen := h.length
  have hle := h.le
  have key : Seq.charAtLoop q.flat i = .ok c := by
    have := Seq.charAtLoop_ok q.flat (Seq.flat_wf h.sane) i (by rw [Seq.flat_text, h.text]; omega)
    rw [this, Seq.flat_text, h.text, Int.toNat_natCast, hc]; rfl
  have hck := checkPositionIndex_ok (i := i) (n := q.length) ⟨by omega, by omega⟩
  cases q with
  | atom a =>
    have ht : a.text = x.text := h.text
    have hlt : (i : Int) < a.text.length := by rw [ht]; omega
    rw [Seq.charAt, Atomic.charAt_ok (show a.WF from h.sane) ⟨by omega, hlt⟩, ht, Int.toNat_natCast, hc]; rfl
  | concat l r n k => rw [Seq.charAt, hck, bind_ok, Seq.leaves_ok h.sane, bind_ok, key]; simp
  | array es n => rw [Seq.charAt, hck, bind_ok, Seq.leaves_ok h.sane, bind_ok, key]; simp

theorem Rep.charAt_out {x : Sliced} {q : Seq} (h : x.Rep q) (i : Int) (hi : i < 0 ∨ (x.reports : Int) ≤ i) :
    q.charAt i = .error .indexOutOfBounds := by
  have hlen := h.length
  have hck := checkPositionIndex_err (i := i) (n := q.length) (by omega)
  cases q with
  | atom a =>
    have hw : a.WF := h.sane
    have := Atomic.length_text hw
    have hla : (Seq.atom a).length = a.length := rfl
    exact Atomic.charAt_err hw (by omega)
  | concat l r n k => rw [Seq.charAt, hck]; rfl; simp
  | array es n => rw [Seq.charAt, hck]; rfl; simp

theorem Rep.seen {x : Sliced} {q : Seq} (h : x.Rep q) : x.Seen q where
  length := h.length
  isEmpty := by
    rw [← h.zero]
    have := h.length
    simp only [Seq.isEmpty, beq_iff_eq]; omega
  charAt := h.charAt
  charAt_out := h.charAt_out
  startsWith c := by
    have hlen := h.length
    have hle := h.le
    unfold Seq.startsWith
    by_cases h0 : x.reports = 0
    · rw [if_neg (by omega), h.zero.1 h0]; rfl
    · rw [if_pos (by omega)]
      cases ht : x.text with
      | nil => exact absurd (h.zero.2 ht) h0
      | cons d t =>
        have := h.charAt 0 d (by omega) (by rw [ht]; rfl)
        rw [show (0 : Int) = ((0 : Nat) : Int) from rfl, this]; simp
  indexOf c := by rw [Seq.indexOf_ok h.sane, h.text]
  toStr := by rw [Seq.toStr_ok h.sane, h.text]
  toBuilder sb := by rw [Seq.appendToSB_ok h.sane, h.text]
  toAppendable := by rw [← h.text]; exact Seq.appendToCalls_ok h.sane

theorem Rep.mkConcat {x y : Sliced} {p q : Seq} (hx : x.Rep p) (hy : y.Rep q) : (x.add y).Rep (Seq.mkConcat p q) where
  sane := Seq.mkConcat_sane hx.sane hy.sane
  pieces := by
    rw [Seq.leafTexts_eq, Seq.mkConcat_flat, List.map_append, nonEmpty_append, ← Seq.leafTexts_eq, ← Seq.leafTexts_eq,
      hx.pieces, hy.pieces, add, nonEmpty_append]
  length := by rw [Seq.mkConcat_length hx.sane, hx.length, hy.length, add]; push_cast; rfl
  le := by
    have := hx.le; have := hy.le
    simp only [add, Sliced.text, List.flatten_append, List.length_append] at *; omega
  leaf := by
    rintro ⟨a, ha⟩
    cases p <;> simp [Seq.mkConcat, Seq.concat0] at ha

theorem Rep.congr {x y : Sliced} {q : Seq} (h : x.Rep q) (hp : nonEmpty x.pieces = nonEmpty y.pieces)
    (hr : x.reports = y.reports) : y.Rep q := by
  have ht : x.text = y.text := by rw [Sliced.text, ← nonEmpty_flatten, hp, nonEmpty_flatten]; rfl
  refine ⟨h.sane, h.pieces.trans hp, by rw [h.length, hr], by rw [← hr, ← ht]; exact h.le, fun ha => ?_⟩
  have := h.leaf ha
  rw [Exact] at this ⊢
  rw [← hr, ← ht]; exact this

theorem Rep.append {x y : Sliced} {p q : Seq} (hx : x.Rep p) (hy : y.Rep q) : (x.add y).Rep (p.append q) := by
  have hE : q.isEmpty = true → y.text = [] := hy.seen.isEmpty.1
  have key : (x.add y).Rep (if q.isEmpty then p else Seq.mkConcat p q) := by
    by_cases h : q.isEmpty = true
    · rw [if_pos h]
      refine hx.congr ?_ ?_
      · rw [add, nonEmpty_append, nonEmpty_of_flatten (l := y.pieces) (hE h), List.append_nil]
      · rw [add, hy.zero.2 (hE h)]; simp
    · rw [if_neg h]; exact hx.mkConcat hy
  unfold Seq.append
  split
  · have h0 : x.text = [] := hx.text.symm
    refine hy.congr ?_ ?_
    · rw [add, nonEmpty_append, nonEmpty_of_flatten (l := x.pieces) h0, List.nil_append]
    · rw [add, hx.zero.2 h0]; simp
  · exact key

theorem Rep.prepend {x y : Sliced} {p q : Seq} (hx : x.Rep p) (hy : y.Rep q) : (y.add x).Rep (p.prepend q) := by
  have hE : q.isEmpty = true → y.text = [] := hy.seen.isEmpty.1
  have key : (y.add x).Rep (if q.isEmpty then p else Seq.mkConcat q p) := by
    by_cases h : q.isEmpty = true
    · rw [if_pos h]
      refine hx.congr ?_ ?_
      · rw [add, nonEmpty_append, nonEmpty_of_flatten (l := y.pieces) (hE h), List.nil_append]
      · rw [add, hy.zero.2 (hE h)]; simp
    · rw [if_neg h]; exact hy.mkConcat hx
  unfold Seq.prepend
  split
  · have h0 : x.text = [] := hx.text.symm
    refine hy.congr ?_ ?_
    · rw [add, nonEmpty_append, nonEmpty_of_flatten (l := x.pieces) h0, List.append_nil]
    · rw [add, hx.zero.2 h0]; simp
  · exact key

theorem Rep.upper {x : Sliced} {q : Seq} (h : x.Rep q) :
    ∃ u, q.upperCase = .ok u ∧ (⟨x.pieces.map (·.map Spec.upper), x.reports⟩ : Sliced).Rep u := by
  obtain ⟨u, u1, u2, u3, u4⟩ := Seq.upperCase_sane h.sane
  have u5 := Seq.upperCase_pieces h.sane u1
  have hlen : (⟨x.pieces.map (·.map Spec.upper), x.reports⟩ : Sliced).text.length = x.text.length := by
    simp [Sliced.text, List.length_flatten, Function.comp_def]
  refine ⟨u, u1, u2, ?_, by rw [u4, h.length], by rw [hlen]; exact h.le, ?_⟩
  · rw [Seq.leafTexts_eq, u5, nonEmpty_map, ← Seq.leafTexts_eq, h.pieces, nonEmpty_map]
  · rintro ⟨a, rfl⟩
    rw [Exact, hlen, ← h.text]
    have h1 := u2.length_nonneg
    have hw : a.WF := u2
    have h2 : (Seq.atom a).length = a.text.length := Atomic.length_text hw
    have h3 := congrArg List.length u3
    rw [List.length_map] at h3
    have h4 : (Seq.atom a).text = a.text := rfl
    rw [h4] at h3
    have h5 := h.length
    simp only
    omega

theorem Rep.slice {x y : Sliced} {q : Seq} (h : x.Rep q) {i j : Int} (hs : x.slice i j = some y) :
    ∃ t, q.subSequence i j = .ok t ∧ y.Rep t := by
  unfold Sliced.slice at hs
  by_cases hr : 0 ≤ i ∧ i ≤ j ∧ j ≤ x.reports
  swap
  · rw [if_neg hr] at hs; cases hs
  rw [if_pos hr] at hs
  have hlen := h.length
  have hle := h.le
  by_cases ha : ∃ a, q = .atom a
  · have hx := h.leaf ha
    obtain ⟨a, rfl⟩ := ha
    have ht : a.text = x.text := h.text
    rw [Exact] at hx
    obtain ⟨b, b1, b2, b3⟩ := Atomic.subSequence_ok (show a.WF from h.sane) (i := i) (j := j) (by rw [ht]; omega)
    refine ⟨.atom b, by rw [Seq.subSequence, b1]; rfl, ?_⟩
    have hbt : leafTexts (.atom b) = [b.text] := rfl
    have hbl := Atomic.length_text b2
    have hbs : b.text.length = (j - i).toNat := by
      rw [b3, sub, List.length_take, List.length_drop, ht]; omega
    have mk : ∀ z : Sliced, nonEmpty [b.text] = nonEmpty z.pieces → z.reports = (j - i).toNat → z.Rep (.atom b) := by
      intro z hz hzr
      have hzt : z.text.length = (j - i).toNat := by
        rw [Sliced.text, ← nonEmpty_flatten, ← hz, nonEmpty_flatten]; simpa using hbs
      refine ⟨b2, by rw [hbt, hz], ?_, by omega, fun _ => ?_⟩
      · have : (Seq.atom b).length = b.length := rfl
        omega
      · rw [Exact]; omega
    by_cases hij : i = j
    · rw [if_pos hij] at hs; cases hs
      refine mk _ ?_ (by simp only; omega)
      have : b.text = [] := List.length_eq_zero_iff.1 (by omega)
      simp [this, nonEmpty]
    · rw [if_neg hij] at hs
      by_cases hf : i = 0 ∧ j = x.reports
      · rw [if_pos hf] at hs; cases hs
        refine mk _ ?_ (by omega)
        have hp : nonEmpty (leafTexts (.atom a)) = _ := h.pieces
        rw [← hp]
        have : b.text = a.text := by
          rw [b3, hf.1, hf.2, ht, sub, hx]; simp
        rw [this]; rfl
      · rw [if_neg hf] at hs; cases hs
        have hpp : parts x.pieces i.toNat j.toNat = [b.text] := by
          rw [← parts_congr h.pieces]
          have : leafTexts (.atom a) = [a.text] := rfl
          rw [this, parts, if_pos (by rw [ht]; omega), if_pos (by rw [ht]; omega), b3]
        rw [hpp]
        exact mk _ rfl (by simp [lastLength, hbs])
  · have hat : ∀ a, q ≠ .atom a := fun a h => ha ⟨a, h⟩
    rw [library_subSequence_composite hat, checkPositionIndexes_ok (by omega), bind_ok]
    by_cases hij : i = j
    · rw [if_pos hij] at hs; cases hs
      rw [if_pos hij]
      exact ⟨_, rfl, trivial, rfl, rfl, by simp, fun _ => rfl⟩
    · rw [if_neg hij] at hs
      rw [if_neg hij]
      by_cases hf : i = 0 ∧ j = x.reports
      · rw [if_pos hf] at hs; cases hs
        rw [if_pos (by omega)]
        exact ⟨q, rfl, h⟩
      · rw [if_neg hf] at hs; cases hs
        rw [if_neg (by omega), Seq.leaves_ok h.sane, bind_ok]
        have hj : j.toNat ≤ (q.flat.flatMap Atomic.text).length := by rw [Seq.flat_text, h.text]; omega
        obtain ⟨ps, s', e', g1, g2, g3, g4⟩ :=
          Seq.subLoop_parts q.flat (Seq.flat_wf h.sane) i.toNat j.toNat [] (by omega) hj
        rw [Int.toNat_of_nonneg (by omega), Int.toNat_of_nonneg (by omega)] at g1
        rw [← Seq.leafTexts_eq, parts_congr h.pieces] at g3 g4
        have hgood := parts_good x.pieces i.toNat j.toNat (by omega) (by
          have : x.pieces.flatten.length = x.text.length := rfl
          omega)
        have hb := lastLength_bounds hgood.1 hgood.2
        rw [g1, bind_ok]
        match ps, g2, g3 with
        | [], _, g3 => exact absurd g3.symm hgood.1
        | [b], g2, g3 =>
          have hw := g2 b (by simp)
          have hbl := Atomic.length_text hw
          refine ⟨.atom b, rfl, hw, by rw [← g3]; rfl, ?_, hb.2, fun _ => ?_⟩
          · simp only
            rw [← g3, show (Seq.atom b).length = b.length from rfl]; simpa [lastLength] using hbl
          · rw [Exact, Sliced.text]
            simp only
            rw [← g3]; simp [lastLength]
        | b :: c :: ps, g2, g3 =>
          refine ⟨.array (b :: c :: ps) (e' - s'), rfl, ⟨by simp, g2, by omega, by omega⟩, ?_, g4, hb.2, ?_⟩
          · rw [← g3]; rfl
          · rintro ⟨a, ha⟩; cases ha

theorem Rep.slice_none {x : Sliced} {q : Seq} (h : x.Rep q) {i j : Int} (hs : x.slice i j = none) :
    ∃ e, q.subSequence i j = .error e ∧ ((∀ a, q ≠ .atom a) → e = .indexOutOfBounds) := by
  unfold Sliced.slice at hs
  by_cases hr : 0 ≤ i ∧ i ≤ j ∧ j ≤ x.reports
  · rw [if_pos hr] at hs
    split_ifs at hs
  · have hlen := h.length
    by_cases ha : ∃ a, q = .atom a
    · have hx := h.leaf ha
      obtain ⟨a, rfl⟩ := ha
      have ht : a.text = x.text := h.text
      rw [Exact] at hx
      obtain ⟨e, he⟩ := Atomic.subSequence_err (show a.WF from h.sane) (i := i) (j := j) (by rw [ht]; omega)
      exact ⟨e, by rw [Seq.subSequence, he]; rfl, fun hc => absurd rfl (hc a)⟩
    · have hat : ∀ a, q ≠ .atom a := fun a h => ha ⟨a, h⟩
      refine ⟨.indexOutOfBounds, ?_, fun _ => rfl⟩
      rw [library_subSequence_composite hat, checkPositionIndexes_err (by omega)]; rfl

end Spec.Sliced

theorem SliceExpr.eval_spec (e : SliceExpr) :
    match e.expected with
    | some x => ∃ q, e.eval = .ok q ∧ x.Rep q
    | none => ∃ err, e.eval = .error err := by
  have two : ∀ (l r : SliceExpr) (f : Seq → Seq → Seq) (g : Sliced → Sliced → Sliced)
      (hf : ∀ x y a b, x.Rep a → y.Rep b → (g x y).Rep (f a b))
      (ihl : match l.expected with
        | some x => ∃ q, l.eval = .ok q ∧ x.Rep q
        | none => ∃ err, l.eval = .error err)
      (ihr : match r.expected with
        | some x => ∃ q, r.eval = .ok q ∧ x.Rep q
        | none => ∃ err, r.eval = .error err),
      match (l.expected.bind fun a => r.expected.map fun b => g a b) with
      | some x => ∃ q, (do return f (← l.eval) (← r.eval) : Res Seq) = .ok q ∧ x.Rep q
      | none => ∃ err, (do return f (← l.eval) (← r.eval) : Res Seq) = .error err := by
    intro l r f g hf ihl ihr
    cases h1 : l.expected with
    | none =>
      rw [h1] at ihl
      obtain ⟨x, hx⟩ := ihl
      exact ⟨x, by rw [hx]; rfl⟩
    | some t =>
      rw [h1] at ihl
      obtain ⟨a, h2, h3⟩ := ihl
      cases h5 : r.expected with
      | none =>
        rw [h5] at ihr
        obtain ⟨x, hx⟩ := ihr
        exact ⟨x, by rw [h2, hx]; rfl⟩
      | some u =>
        rw [h5] at ihr
        obtain ⟨b, h6, h7⟩ := ihr
        exact ⟨f a b, by rw [h2, h6]; rfl, hf _ _ a b h3 h7⟩
  induction e with
  | leaf e =>
    have he := e.eval_spec
    simp only [SliceExpr.expected, SliceExpr.eval]
    cases h1 : e.plain with
    | none =>
      rw [h1] at he
      obtain ⟨x, hx⟩ := he
      exact ⟨x, by rw [hx]; rfl⟩
    | some t =>
      rw [h1] at he
      obtain ⟨a, h2, h3, h4⟩ := he
      refine ⟨.atom a, by rw [h2]; rfl, h3, by rw [← h4]; rfl, ?_, le_rfl, fun _ => rfl⟩
      have : (Seq.atom a).length = a.text.length := Atomic.length_text h3
      rw [this, h4]; simp [whole]
  | concat l r ihl ihr => exact two l r Seq.mkConcat Sliced.add (fun _ _ _ _ h1 h2 => h1.mkConcat h2) ihl ihr
  | append l r ihl ihr => exact two l r Seq.append Sliced.add (fun _ _ _ _ h1 h2 => h1.append h2) ihl ihr
  | prepend l r ihl ihr =>
    exact two l r Seq.prepend (fun a b => b.add a) (fun _ _ _ _ h1 h2 => h1.prepend h2) ihl ihr
  | join es =>
    have he := LeafExpr.mapM_spec es
    simp only [SliceExpr.expected, SliceExpr.eval]
    cases h1 : es.mapM LeafExpr.plain with
    | none =>
      rw [h1] at he
      obtain ⟨x, hx⟩ := he
      exact ⟨x, by rw [hx]; rfl⟩
    | some ts =>
      rw [h1] at he
      obtain ⟨as, h2, h3, h4⟩ := he
      have hj := Seq.join_spec h3
      refine ⟨Seq.join as, by rw [h2]; rfl, hj.1.sane, ?_, ?_, le_rfl, fun _ => rfl⟩
      · match as, h4 with
        | [], h4 => rw [← h4]; rfl
        | [a], h4 => rw [← h4]; rfl
        | a :: b :: as, h4 => rw [← h4]; rfl
      · rw [hj.1.length_text, hj.2, List.flatMap_def, h4]; rfl
  | upper e ih =>
    simp only [SliceExpr.expected, SliceExpr.eval]
    cases h1 : e.expected with
    | none =>
      rw [h1] at ih
      obtain ⟨x, hx⟩ := ih
      exact ⟨x, by rw [hx]; rfl⟩
    | some x =>
      rw [h1] at ih
      obtain ⟨q, h2, h3⟩ := ih
      rw [h2]
      exact h3.upper
  | slice e i j ih =>
    simp only [SliceExpr.expected, SliceExpr.eval]
    cases h1 : e.expected with
    | none =>
      rw [h1] at ih
      obtain ⟨x, hx⟩ := ih
      exact ⟨x, by rw [hx]; rfl⟩
    | some x =>
      rw [h1] at ih
      obtain ⟨q, h2, h3⟩ := ih
      rw [h2]
      simp only [Option.bind_some, bind_ok]
      cases h4 : x.slice i j with
      | none => obtain ⟨e, he, _⟩ := h3.slice_none h4; exact ⟨e, he⟩
      | some y => exact h3.slice h4

end FastPrintf
