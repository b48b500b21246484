/-
What ropes with `int` lengths do when a length no longer fits.
-/
import Verif.Proofs.IntPrintf
import Verif.Proofs.Star

namespace FastPrintf
namespace Narrow

open FastPrintf.Seq Spec

/-- A rope of consistent leaves, each shorter than 2³¹, whose stored lengths are the `int` sums. -/
def Wrapped : Seq → Prop
  | .atom a => a.WF ∧ a.text.length ≤ 2147483647
  | .concat l r n _ => Wrapped l ∧ Wrapped r ∧ n = wrap32 (l.length + r.length)
  | .array es n => es ≠ [] ∧ (∀ a ∈ es, a.WF) ∧ n = wrap32 (es.flatMap Atomic.text).length

theorem wrap_add (x y : Int) : wrap32 (wrap32 x + wrap32 y) = wrap32 (x + y) := by
  unfold wrap32
  rw [Int.bmod_add_bmod, Int.add_bmod_bmod]

theorem wrap_add_left (x y : Int) : wrap32 (wrap32 x + y) = wrap32 (x + y) := by
  unfold wrap32
  rw [Int.bmod_add_bmod]

theorem wrap_add_right (x y : Int) : wrap32 (x + wrap32 y) = wrap32 (x + y) := by
  unfold wrap32
  rw [Int.add_bmod_bmod]

/-- The stored length is the length of the text, wrapped around. -/
theorem Wrapped.length {s : Seq} (h : Wrapped s) : s.length = wrap32 s.text.length := by
  induction s with
  | atom a =>
    have := Atomic.length_text h.1
    show a.length = wrap32 (a.text.length : Int)
    have h2 := h.2
    rw [wrap_id (by omega) (by omega), this]
  | concat l r n k ihl ihr =>
    show n = _
    rw [h.2.2, ihl h.1, ihr h.2.1, wrap_add]
    simp [Seq.text]
  | array es n => exact h.2.2

theorem mkConcat_wrapped {l r : Seq} (hl : Wrapped l) (hr : Wrapped r) : Wrapped (mkConcat l r) := by
  cases l with
  | atom a => exact ⟨hl, hr, rfl⟩
  | concat a b n k => exact ⟨hl.1, ⟨hl.2.1, hr, rfl⟩, rfl⟩
  | array es n => exact ⟨hl, hr, rfl⟩

theorem mkConcat_text (l r : Seq) : (mkConcat l r).text = l.text ++ r.text := by
  cases l <;> simp [mkConcat, concat0, Seq.text]

theorem append_wrapped {l r : Seq} (hl : Wrapped l) (hr : Wrapped r) : Wrapped (append l r) := by
  unfold append
  split
  · exact hr
  · split_ifs
    · exact hl
    · exact mkConcat_wrapped hl hr

theorem prepend_wrapped {l r : Seq} (hl : Wrapped l) (hr : Wrapped r) : Wrapped (prepend l r) := by
  unfold prepend
  split
  · exact hr
  · split_ifs
    · exact hl
    · exact mkConcat_wrapped hr hl

theorem wrapped_empty_iff {s : Seq} (h : Wrapped s) : s.isEmpty = true ↔ wrap32 s.text.length = 0 := by
  rw [← h.length]
  unfold Seq.isEmpty
  simp

/-- `append` keeps both texts, unless the length of the second wraps around to 0. -/
theorem append_text {l r : Seq} (hr : Wrapped r) :
    (append l r).text = if wrap32 r.text.length = 0 ∧ l ≠ .atom .empty then l.text else l.text ++ r.text := by
  have he := wrapped_empty_iff hr
  unfold append
  split
  · rw [if_neg (by simp)]; rfl
  · rename_i hne
    by_cases hc : r.isEmpty = true
    · rw [if_pos hc, if_pos ⟨he.1 hc, fun h => hne h⟩]
    · rw [if_neg hc, if_neg (fun h => hc (he.2 h.1)), mkConcat_text]

theorem prepend_text {l r : Seq} (hr : Wrapped r) :
    (prepend l r).text = if wrap32 r.text.length = 0 ∧ l ≠ .atom .empty then l.text else r.text ++ l.text := by
  have he := wrapped_empty_iff hr
  unfold prepend
  split
  · rw [if_neg (by simp)]; simp [Seq.text, Atomic.text]
  · rename_i hne
    by_cases hc : r.isEmpty = true
    · rw [if_pos hc, if_pos ⟨he.1 hc, fun h => hne h⟩]
    · rw [if_neg hc, if_neg (fun h => hc (he.2 h.1)), mkConcat_text]

/-- A rope of consistent leaves, whatever lengths it stores. -/
def Solid : Seq → Prop
  | .atom a => a.WF
  | .concat l r _ _ => Solid l ∧ Solid r
  | .array es _ => es ≠ [] ∧ ∀ a ∈ es, a.WF

theorem Wrapped.solid {s : Seq} (h : Wrapped s) : Solid s := by
  induction s with
  | atom a => exact h.1
  | concat l r n k ihl ihr => exact ⟨ihl h.1, ihr h.2.1⟩
  | array es n => exact ⟨h.1, h.2.1⟩

theorem Solid.flat {s : Seq} (h : Solid s) : ∀ a ∈ s.flat, a.WF := by
  induction s with
  | atom a => intro b hb; rw [Seq.flat, List.mem_singleton] at hb; subst hb; exact h
  | concat l r n k ihl ihr =>
    intro a ha
    rcases List.mem_append.1 ha with h1 | h1
    · exact ihl h.1 a h1
    · exact ihr h.2 a h1
  | array es n => exact h.2

theorem solid_unfold {s : Seq} (h : Solid s) (st : List Seq) :
    ∃ a st', unfoldLoop s st = .ok (a, st') ∧
      s.flat ++ st.flatMap Seq.flat = a :: st'.flatMap Seq.flat ∧
      (s.leafCount + (st.map leafCount).sum = 1 + (st'.map leafCount).sum) ∧
      ((∀ x ∈ st, Solid x) → ∀ x ∈ st', Solid x) := by
  induction s generalizing st with
  | atom a => exact ⟨a, st, rfl, rfl, rfl, id⟩
  | concat l r n k ihl ihr =>
    obtain ⟨a, st', h1, h2, h3, h4⟩ := ihl h.1 (r :: st)
    refine ⟨a, st', h1, ?_, ?_, ?_⟩
    · rw [← h2]; simp [Seq.flat]
    · simp only [leafCount, List.map_cons, List.sum_cons] at h3 ⊢; omega
    · intro hs
      apply h4
      intro x hx
      rcases List.mem_cons.1 hx with rfl | hx
      · exact h.2
      · exact hs x hx
  | array es n =>
    obtain ⟨h1, h2⟩ := h
    match es, h1 with
    | a :: rest, _ =>
      clear h1
      refine ⟨a, rest.map .atom ++ st, rfl, ?_, ?_, ?_⟩
      · simp only [Seq.flat, List.cons_append, List.flatMap_append, List.cons.injEq, true_and]
        congr 1
        exact (flatMap_flat_atom rest).symm
      · simp only [leafCount, List.length_cons, List.map_append, List.sum_append, List.map_map]
        have := sum_leafCount_atom rest
        omega
      · intro hs x hx
        rcases List.mem_append.1 hx with hx | hx
        · obtain ⟨b, hb, rfl⟩ := List.mem_map.1 hx
          exact h2 b (List.mem_cons_of_mem _ hb)
        · exact hs x hx

theorem solid_iterate (fuel : Nat) (st : List Seq) (hs : ∀ x ∈ st, Solid x)
    (hf : (st.map leafCount).sum ≤ fuel) : iterate fuel st = .ok (st.flatMap Seq.flat) := by
  induction fuel generalizing st with
  | zero =>
    match st with
    | [] => rfl
    | s :: st =>
      obtain ⟨a, st', _, _, h3, _⟩ := solid_unfold (hs s (by simp)) st
      simp only [List.map_cons, List.sum_cons] at hf
      omega
  | succ fuel ih =>
    match st with
    | [] => rfl
    | s :: st =>
      obtain ⟨a, st', h1, h2, h3, h4⟩ := solid_unfold (hs s (by simp)) st
      simp only [List.map_cons, List.sum_cons] at hf
      unfold iterate
      rw [h1, bind_ok]
      simp only
      rw [ih st' (h4 fun x hx => hs x (List.mem_cons_of_mem _ hx)) (by omega), List.flatMap_cons, h2]
      rfl

theorem Solid.leaves {s : Seq} (h : Solid s) : s.leaves = .ok s.flat := by
  cases s with
  | atom a => rfl
  | concat l r n k =>
    have := solid_iterate (leafCount (.concat l r n k)) [.concat l r n k]
      (by intro x hx; rw [List.mem_singleton] at hx; subst hx; exact h) (by simp)
    rw [List.flatMap_singleton] at this
    exact this
  | array es n => rfl

/-- The text is written whole, whatever the stored lengths say. -/
theorem Solid.written {s : Seq} (h : Solid s) (sb : JStr) : s.appendToSB sb = .ok (sb ++ s.text) := by
  cases s with
  | atom a => exact Atomic.appendToSB_ok h sb
  | concat l r n k =>
    simp only [appendToSB, h.leaves, bind_ok, appendLeavesSB_ok _ h.flat, flat_text]
  | array es n =>
    simp only [appendToSB, h.leaves, bind_ok, appendLeavesSB_ok _ h.flat, flat_text]

/-- The stored leaf counts are the `int` sums. -/
def Tallied : Seq → Prop
  | .atom _ => True
  | .concat l r _ k => Tallied l ∧ Tallied r ∧ k = wrap32 (l.elementCount + r.elementCount)
  | .array es _ => es.length ≤ 2147483647

theorem Tallied.count {s : Seq} (h : Tallied s) : s.elementCount = wrap32 s.flat.length := by
  induction s with
  | atom a => show (1 : Int) = wrap32 1; rw [wrap_id (by omega) (by omega)]
  | concat l r n k ihl ihr =>
    show k = _
    rw [h.2.2, ihl h.1, ihr h.2.1, wrap_add]
    simp [Seq.flat]
  | array es n =>
    have h' : es.length ≤ 2147483647 := h
    show (es.length : Int) = wrap32 es.length
    rw [wrap_id (by omega) (by omega)]

theorem mkConcat_tallied {l r : Seq} (hl : Tallied l) (hr : Tallied r) : Tallied (mkConcat l r) := by
  cases l with
  | atom a => exact ⟨hl, hr, rfl⟩
  | concat a b n k => exact ⟨hl.1, ⟨hl.2.1, hr, rfl⟩, rfl⟩
  | array es n => exact ⟨hl, hr, rfl⟩

theorem mkConcat_flat (l r : Seq) : (mkConcat l r).flat = l.flat ++ r.flat := by
  cases l <;> simp [mkConcat, concat0, Seq.flat]

theorem upper_refused {l r : Seq} (hl : Tallied l) (hr : Tallied r)
    (h : wrap32 ((l.flat.length : Int) + r.flat.length) < 0) : upperCase (mkConcat l r) = .error .illegalArgument := by
  have hc := (mkConcat_tallied hl hr).count
  rw [mkConcat_flat, List.length_append, Nat.cast_add] at hc
  have shape : ∃ a b n k, mkConcat l r = .concat a b n k := by
    cases l <;> exact ⟨_, _, _, _, rfl⟩
  obtain ⟨a, b, n, k, e⟩ := shape
  rw [e] at hc ⊢
  have hk : k < 0 := by
    have : (Seq.concat a b n k).elementCount = k := rfl
    omega
  simp only [upperCase, if_pos hk]

/-! `%f` of a large power of ten -/

theorem wrapped_wrap {t : JStr} (h : t.length ≤ 2147483647) : Wrapped (Seq.wrap t) :=
  ⟨wrap_wf t, le_trans (le_of_eq (congrArg List.length (wrap_text t))) h⟩

theorem wrapped_ch (c : JChar) : Wrapped (Seq.ch c) := by
  refine ⟨ch_wf c, ?_⟩
  have : (Seq.ch c).text = [c] := ch_text c
  exact le_trans (le_of_eq (congrArg List.length this)) (by simp)

theorem repeated_wrapped {c : JChar} {n : Int} (h : 1 ≤ n) (h2 : n ≤ 2147483647) :
    ∃ s, Seq.repeated c n = .ok s ∧ Wrapped s ∧ s.text = List.replicate n.toNat c := by
  obtain ⟨a, h1, h3, h4⟩ := Atomic.mkRepeated_ok (c := c) h
  exact ⟨.atom a, by simp [Seq.repeated, h1], ⟨h3, by rw [h4, List.length_replicate]; omega⟩, h4⟩

/-- The layout of an integer with `k` zeros to add. -/
theorem layout_zeros {u n k : Nat} (hn : (toRadix 10 u).length = n) (hk : 1 ≤ k) (hl : n + k ≤ 2147483647) {p : Int}
    (hp : 0 ≤ p) :
    ∃ m, decimalLayout ⟨u, -(k : Int)⟩ p = .ok ⟨m, none⟩ ∧ Wrapped m ∧ m.text = toRadix 10 u ++ List.replicate k 48 := by
  have hne : 0 < n := by rw [← hn]; exact List.length_pos_of_ne_nil (toRadix_ne_nil _ _)
  have e : BigDec.digits ⟨u, -(k : Int)⟩ = toRadix 10 u := rfl
  unfold decimalLayout
  rw [if_neg (by dsimp only; omega)]
  unfold decimalLayout0
  dsimp only
  rw [if_neg (by omega), e, hn, wrap_id (x := -(k : Int) - n) (by omega) (by omega), if_neg (by omega),
    wrap_id (x := -(-(k : Int) - n)) (by omega) (by omega), if_neg (by omega),
    wrap_id (x := -(-(k : Int))) (by omega) (by omega)]
  obtain ⟨z, z1, z2, z3⟩ := repeated_wrapped (c := 48) (n := -(-(k : Int))) (by omega) (by omega)
  rw [z1, bind_ok]
  refine ⟨_, rfl, append_wrapped (wrapped_wrap (by omega)) z2, ?_⟩
  rw [append_text z2, z3, wrap_text, List.length_replicate, if_neg]
  · congr 2; omega
  · rintro ⟨h, -⟩
    rw [wrap_id (by omega) (by omega)] at h
    omega

theorem indexOf_none {s : Seq} (h : Solid s) {c : JChar} (hc : c ∉ s.text) : indexOf s c = .ok (-1) := by
  have loop : ∀ (es : List Atomic) (n : Int), (∀ a ∈ es, a.WF) → c ∉ es.flatMap Atomic.text →
      indexOfLoop c es n = .ok (-1) := by
    intro es
    induction es with
    | nil => intro n _ _; rfl
    | cons a es ih =>
      intro n hw hc
      simp only [List.flatMap_cons, List.mem_append, not_or] at hc
      unfold indexOfLoop
      rw [Atomic.indexOf_ok (hw a (by simp)), (Atomic.firstIndex_eq_neg _ _).2 hc.1, bind_ok, if_neg (by omega)]
      exact ih _ (fun b hb => hw b (List.mem_cons_of_mem _ hb)) hc.2
  cases s with
  | atom a =>
    show a.indexOf c = _
    rw [Atomic.indexOf_ok h, (Atomic.firstIndex_eq_neg a.text c).2 hc]
  | concat l r n k =>
    rw [indexOf, h.leaves, bind_ok]
    · exact loop _ _ h.flat (by rw [flat_text]; exact hc)
    · simp
  | array es n =>
    rw [indexOf, h.leaves, bind_ok]
    · exact loop _ _ h.flat (by rw [flat_text]; exact hc)
    · simp

/-- A context without a width, and without flags that add text around the number. -/
structure Unadorned (ctx : FormatContext) : Prop where
  width : SeqFormatter.width ctx = 0
  left : ctx.hasFlag .leftJustify = false
  zero : ctx.hasFlag .zeroPad = false
  plus : ctx.hasFlag .plus = false
  space : ctx.hasFlag .leadingSpace = false

theorem frac_zeros {m : Seq} (h : Wrapped m) (hd : 46 ∉ m.text) {p : Int} (hp : 1 ≤ p) (hp2 : p ≤ 65536) (b : Bool) :
    ∃ m', formatFractionalPart m p b = .ok m' ∧ Wrapped m' ∧ m'.text = m.text ++ 46 :: List.replicate p.toNat 48 := by
  unfold formatFractionalPart
  obtain ⟨z, z1, z2, z3⟩ := repeated_wrapped (c := 48) (n := p) hp (by omega)
  rw [indexOf_none h.solid hd, bind_ok]
  simp only [show ¬ (-1 : Int) ≥ 0 by omega, if_false, show ((-1 : Int) < 0) by omega, if_true, and_true]
  rw [if_neg (by omega), if_neg (by omega), Int.sub_zero, wrap_id (by omega) (by omega), z1]
  simp only [bind_ok]
  refine ⟨_, rfl, append_wrapped (append_wrapped h (wrapped_ch _)) z2, ?_⟩
  rw [append_text z2, if_neg, append_text (wrapped_ch _), if_neg, z3]
  · have : (Seq.ch 46).text = [46] := ch_text _
    simp [this]
  · rintro ⟨h, -⟩
    have : (Seq.ch 46).text = [46] := ch_text _
    rw [this] at h
    exact absurd h (by decide)
  · rintro ⟨h, -⟩
    rw [z3, List.length_replicate, wrap_id (by omega) (by omega)] at h
    omega

theorem digits_no_dot (u : Nat) : 46 ∉ toRadix 10 u := by
  intro h
  exact ((shortest_toRadix (b := 10) (by omega) (by omega) u).1.2 46 h).ne_dot rfl

/-- The text `%f` should print of an integer followed by `k` zeros. -/
def zerosText (u : Int) (k p : Nat) : JStr :=
  (if u < 0 then [45] else []) ++ (toRadix 10 u.natAbs ++ List.replicate k 48 ++ 46 :: List.replicate p 48)

theorem f_zeros {ctx : FormatContext} (hx : Unadorned ctx) {u : Int} {n k p : Nat} (hn : (toRadix 10 u.natAbs).length = n)
    (hk : 1 ≤ k) (hl : n + k ≤ 2147483647) (hp : SeqFormatter.precision6 ctx = p) (hp1 : 1 ≤ p) (hp2 : p ≤ 65536) :
    ∃ m, f ctx (ofBigDecimal u (-(k : Int))) = spaceJustify ctx m ∧ Wrapped m ∧ m.text = zerosText u k p := by
  obtain ⟨m, m1, m2, m3⟩ := layout_zeros hn hk hl (p := p) (by omega)
  have hd : 46 ∉ m.text := by
    rw [m3]
    simp only [List.mem_append, List.mem_replicate, not_or]
    exact ⟨digits_no_dot _, by omega⟩
  obtain ⟨q, q1, q2, q3⟩ := frac_zeros m2 hd (p := p) (by omega) (by omega) (ctx.hasFlag .alternate)
  refine ⟨sign ctx q (ofBigDecimal u (-(k : Int))).isNegative, ?_, ?_, ?_⟩
  · unfold f
    have e1 : (ofBigDecimal u (-(k : Int))).isNaN = false := rfl
    have e2 : (ofBigDecimal u (-(k : Int))).isInfinite = false := rfl
    have e3 : (ofBigDecimal u (-(k : Int))).decimalLayout p = decimalLayout ⟨u.natAbs, -(k : Int)⟩ p := rfl
    rw [e1, e2, if_neg (by simp), hp, e3, m1]
    simp only [bind_ok]
    rw [q1, bind_ok]
    unfold signAndJustify
    rw [hx.zero, hx.left]
    simp
  · unfold sign
    split_ifs
    · exact prepend_wrapped q2 (wrapped_ch _)
    · exact prepend_wrapped q2 (wrapped_ch _)
    · exact prepend_wrapped q2 (wrapped_ch _)
    · exact q2
  · have e : (ofBigDecimal u (-(k : Int))).isNegative = decide (u < 0) := by
      show decide ((if u < 0 then (-1 : Int) else if u = 0 then 0 else 1) < 0) = _
      split_ifs <;> simp_all
    unfold sign zerosText
    rw [e, hx.plus, hx.space]
    by_cases hu : u < 0
    · have hc : (Seq.ch 45).text = [45] := ch_text _
      simp only [hu, decide_true, if_true]
      rw [prepend_text (wrapped_ch _), if_neg, hc, q3, m3, Int.toNat_natCast]
      rintro ⟨h, -⟩
      rw [hc] at h
      exact absurd h (by decide)
    · simp only [hu, decide_false, Bool.false_eq_true, if_false]
      rw [q3, m3, Int.toNat_natCast]
      rfl

theorem zerosText_length (u : Int) (k p : Nat) :
    (zerosText u k p).length = (if u < 0 then 1 else 0) + (toRadix 10 u.natAbs).length + k + 1 + p := by
  unfold zerosText
  split_ifs <;> simp <;> omega

/-- One unit too many for an `int`: the blanks asked for are `Integer.MIN_VALUE` in number. -/
theorem justify_refused {ctx : FormatContext} (hx : Unadorned ctx) {m : Seq} (hm : Wrapped m)
    (hl : m.text.length = 2147483648) : spaceJustify ctx m = .error .illegalArgument := by
  unfold spaceJustify
  have e : wrap32 ((2147483648 : Nat) : Int) = -2147483648 := by decide
  rw [hx.width, hm.length, hl, e, if_pos (by omega)]
  rfl

/-- More units than that: blanks are put in front although no width was asked for. -/
theorem justify_blanks {ctx : FormatContext} (hx : Unadorned ctx) {m : Seq} (hm : Wrapped m)
    (hl : 2147483648 < m.text.length) (hl2 : m.text.length < 4294967296) :
    ∃ r, spaceJustify ctx m = .ok r ∧ Wrapped r ∧
      r.text = List.replicate (4294967296 - m.text.length) 32 ++ m.text := by
  have e : wrap32 (m.text.length : Int) = m.text.length - 4294967296 := by
    have := wrap_add_right (m.text.length : Int) (-4294967296)
    have e0 : wrap32 (-4294967296) = 0 := by decide
    rw [e0, Int.add_zero] at this
    rw [this, wrap_id (by omega) (by omega)]
    omega
  unfold spaceJustify
  rw [hx.width, hm.length, e, if_pos (by omega), wrap_id (by omega) (by omega), hx.left]
  obtain ⟨z, z1, z2, z3⟩ := repeated_wrapped (c := 32) (n := 0 - ((m.text.length : Int) - 4294967296)) (by omega) (by omega)
  rw [z1]
  refine ⟨_, rfl, prepend_wrapped hm z2, ?_⟩
  have e2 : (0 - ((m.text.length : Int) - 4294967296)).toNat = 4294967296 - m.text.length := by omega
  rw [prepend_text z2, if_neg, z3, e2]
  · rintro ⟨h, -⟩
    rw [z3, List.length_replicate, wrap_id (by omega) (by omega)] at h
    omega

theorem justify_none {ctx : FormatContext} (hx : Unadorned ctx) {m : Seq} (hm : Wrapped m)
    (hl : m.text.length ≤ 2147483647) : spaceJustify ctx m = .ok m := by
  unfold spaceJustify
  rw [hx.width, hm.length, wrap_id (by omega) (by omega), if_neg (by omega)]

/-- The digits and zeros together are 2³¹ units: the layout cuts the digits at `Integer.MIN_VALUE`. -/
theorem f_out_of_bounds {ctx : FormatContext} {u : Int} {n k p : Nat} (hn : (toRadix 10 u.natAbs).length = n)
    (hk : 1 ≤ k) (hl : n + k = 2147483648) (hp : SeqFormatter.precision6 ctx = p) :
    f ctx (ofBigDecimal u (-(k : Int))) = .error .indexOutOfBounds := by
  have e1 : (ofBigDecimal u (-(k : Int))).isNaN = false := rfl
  have e2 : (ofBigDecimal u (-(k : Int))).isInfinite = false := rfl
  have e3 : (ofBigDecimal u (-(k : Int))).decimalLayout p = decimalLayout ⟨u.natAbs, -(k : Int)⟩ p := rfl
  have e4 : decimalLayout ⟨u.natAbs, -(k : Int)⟩ p = .error .indexOutOfBounds := by
    have e : BigDec.digits ⟨u.natAbs, -(k : Int)⟩ = toRadix 10 u.natAbs := rfl
    unfold decimalLayout
    rw [if_neg (by dsimp only; omega)]
    unfold decimalLayout0
    dsimp only
    have w1 : -(k : Int) - n = -2147483648 := by omega
    have w2 : wrap32 (- -2147483648) = -2147483648 := by decide
    rw [if_neg (by omega), e, hn, w1, wrap_id (by omega) (by omega), if_neg (by omega), w2, if_pos (by omega)]
    unfold Atomic.wrapRange checkPositionIndexes
    rw [if_pos (by omega)]
    rfl
  unfold f
  rw [e1, e2, if_neg (by simp), hp, e3, e4]
  rfl

/-! Whole calls -/

theorem printf_one {dates : DateSyntax} {d : Directive} (h : d.Ok dates) (hp : d.Plain) (env : DateEnv) (v : Traits)
    (rest : List Traits) :
    printf dates env d.text (v :: rest) =
      formatterFor env (convOf d.conv) d.context v >>= fun r => r.appendToSB [] := by
  unfold printf
  rw [(compile_iff _ _ _).2 ⟨_, reading_dir h, rfl⟩, bind_ok]
  have e1 : DefaultAppender.starWidth (convOf d.conv) d.context (v :: rest) = .ok (d.context, v :: rest) := by
    unfold DefaultAppender.starWidth FormatContext.isPrecedingWidth
    rw [if_neg (by simpa using hp.width_ne)]
  have e2 : DefaultAppender.starPrecision (convOf d.conv) d.context (v :: rest) = .ok (d.context, v :: rest) := by
    unfold DefaultAppender.starPrecision FormatContext.isPrecedingPrecision
    rw [if_neg (by simpa using hp.prec_ne)]
  have e3 : appendOne env (Piece.compiled (.dir d)) (v :: rest) =
      formatterFor env (convOf d.conv) d.context v >>= fun r => .ok (r, rest) := by
    show appendDefault env (convOf d.conv) d.context (v :: rest) = _
    unfold appendDefault
    rw [e1]; simp only [bind_ok]
    rw [e2]; simp only [bind_ok]
    rfl
  simp only [List.map_cons, List.map_nil, runSB]
  rw [e3]
  cases formatterFor env (convOf d.conv) d.context v with
  | error e => rfl
  | ok r =>
    simp only [bind_ok]
    cases r.appendToSB [] <;> rfl

end Narrow
end FastPrintf
