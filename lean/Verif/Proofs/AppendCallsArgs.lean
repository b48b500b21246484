/-
The `append` calls of arguments as the library itself makes them.
-/
import Verif.Proofs.AppendCalls
import Verif.Spec.AppendCalls
import Verif.Props.Semantics

namespace FastPrintf

open Spec FastPrintf.Seq

/-- A reading whose layouts make no empty call. -/
def FormFull (f : FloatForm) : Prop := ∀ p l, (f.generalLayout p = .ok l ∨ f.scientificLayout p = .ok l ∨
    f.decimalLayout p = .ok l ∨ f.hexLayout p = .ok l) → Seq.LayoutOn (· ≠ []) l

theorem full_range {s : JStr} {i j : Int} {a : Atomic} (h : Atomic.wrapRange s i j = .ok a) : Full (.atom a) :=
  on_atom (on_leaf (wrapRange_calls h) id)

theorem single_toSeq (a : JStr) : On (fun c => c.length = 1) (DoubleWrapper.toSeq a) :=
  on_atom (on_singles (by simp) _)

theorem full_toSeq (a : JStr) : Full (DoubleWrapper.toSeq a) := on_atom (on_singles (by simp) _)

namespace DoubleWrapper

theorem addPlus_full (s : JStr) : Full (addPlus s) := by
  unfold addPlus; split_ifs <;> exact full_wrap _

theorem wrapRange_full {s : JStr} {i j : Int} {q : Seq} (h : wrapRange s i j = .ok q) : Full q := by
  unfold wrapRange at h
  obtain ⟨a, h1, h2⟩ := bind_eq_ok.1 h
  cases h2
  exact full_range h1

theorem simpleHexLayout_full {bits : BitVec 64} {l : FloatLayout} (h : simpleHexLayout bits = .ok l) :
    LayoutOn (· ≠ []) l := by
  unfold simpleHexLayout at h
  obtain ⟨q, h1, h2⟩ := bind_eq_ok.1 h
  cases h2
  exact ⟨wrapRange_full h1, by rintro e ⟨⟩; exact addPlus_full _⟩

theorem generalLayout_full {bits : BitVec 64} {p : Int} {l : FloatLayout}
    (h : generalLayout bits p = .ok l) : LayoutOn (· ≠ []) l := by
  unfold generalLayout at h
  by_cases hz : JavaDouble.isZero bits = true
  · rw [if_pos hz] at h; cases h
    exact ⟨full_ch _, by simp⟩
  · rw [if_neg hz] at h
    obtain ⟨x, _, h⟩ := bind_eq_ok.1 h
    obtain ⟨⟨m, ex⟩, _, h⟩ := bind_eq_ok.1 h
    cases h
    refine ⟨full_toSeq _, ?_⟩
    intro e he
    dsimp only at he
    cases ex with
    | none => cases he
    | some y => cases he; exact full_toSeq _

theorem scientificLayout_full {bits : BitVec 64} {p : Int} {l : FloatLayout}
    (h : scientificLayout bits p = .ok l) : LayoutOn (· ≠ []) l := by
  unfold scientificLayout at h
  by_cases hz : JavaDouble.isZero bits = true
  · rw [if_pos hz] at h; cases h
    exact ⟨full_ch _, by rintro e ⟨⟩; exact full_wrap _⟩
  · rw [if_neg hz] at h
    obtain ⟨x, _, h⟩ := bind_eq_ok.1 h
    obtain ⟨⟨m, ex⟩, _, h⟩ := bind_eq_ok.1 h
    cases h
    exact ⟨full_toSeq _, by rintro e ⟨⟩; exact full_toSeq _⟩

theorem decimalLayout_full {bits : BitVec 64} {p : Int} {l : FloatLayout}
    (h : decimalLayout bits p = .ok l) : LayoutOn (· ≠ []) l := by
  unfold decimalLayout at h
  obtain ⟨x, _, h⟩ := bind_eq_ok.1 h
  obtain ⟨m, _, h⟩ := bind_eq_ok.1 h
  cases h
  exact ⟨full_toSeq _, by simp⟩

theorem generalLayout_single {bits : BitVec 64} {p : Int} {l : FloatLayout}
    (h : generalLayout bits p = .ok l) : LayoutOn (fun c => c.length = 1) l := by
  unfold generalLayout at h
  by_cases hz : JavaDouble.isZero bits = true
  · rw [if_pos hz] at h; cases h
    exact ⟨on_ch (by simp) _, by simp⟩
  · rw [if_neg hz] at h
    obtain ⟨x, _, h⟩ := bind_eq_ok.1 h
    obtain ⟨⟨m, ex⟩, _, h⟩ := bind_eq_ok.1 h
    cases h
    refine ⟨single_toSeq _, ?_⟩
    intro e he
    dsimp only at he
    cases ex with
    | none => cases he
    | some y => cases he; exact single_toSeq _

theorem scientificLayout_single {bits : BitVec 64} {p : Int} {l : FloatLayout} (hz : ¬ JavaDouble.isZero bits = true)
    (h : scientificLayout bits p = .ok l) : LayoutOn (fun c => c.length = 1) l := by
  unfold scientificLayout at h
  rw [if_neg hz] at h
  obtain ⟨x, _, h⟩ := bind_eq_ok.1 h
  obtain ⟨⟨m, ex⟩, _, h⟩ := bind_eq_ok.1 h
  cases h
  exact ⟨single_toSeq _, by rintro e ⟨⟩; exact single_toSeq _⟩

theorem decimalLayout_single {bits : BitVec 64} {p : Int} {l : FloatLayout}
    (h : decimalLayout bits p = .ok l) : LayoutOn (fun c => c.length = 1) l := by
  unfold decimalLayout at h
  obtain ⟨x, _, h⟩ := bind_eq_ok.1 h
  obtain ⟨m, _, h⟩ := bind_eq_ok.1 h
  cases h
  exact ⟨single_toSeq _, by simp⟩

theorem hexLayout_full {bits : BitVec 64} {p : Int} {l : FloatLayout}
    (h : hexLayout bits p = .ok l) : LayoutOn (· ≠ []) l := by
  unfold hexLayout at h
  split at h
  · exact simpleHexLayout_full h
  dsimp only at h
  generalize roundBits (if JavaDouble.getExponent bits = -1023 then JavaDouble.scaleUp54 bits else bits)
    p.toNat = r at h
  split at h
  · cases h; exact ⟨full_wrap _, by rintro e ⟨⟩; exact full_wrap _⟩
  split at h
  · exact simpleHexLayout_full h
  · split at h
    swap
    · cases h
    obtain ⟨q, h1, h2⟩ := bind_eq_ok.1 h
    cases h2
    exact ⟨wrapRange_full h1, by rintro e ⟨⟩; exact addPlus_full _⟩

end DoubleWrapper

theorem FloatForm.ofDouble_full (bits : BitVec 64) : FormFull (FloatForm.ofDouble bits) := by
  rintro p l (h | h | h | h)
  · exact DoubleWrapper.generalLayout_full h
  · exact DoubleWrapper.scientificLayout_full h
  · exact DoubleWrapper.decimalLayout_full h
  · exact DoubleWrapper.hexLayout_full h

namespace BigDecimalWrapper

theorem insertDot_full {s : JStr} {q : Seq} (h : insertDotAfterFirstChar s = .ok q) : Full q := by
  unfold insertDotAfterFirstChar at h
  obtain ⟨c, _, h⟩ := bind_eq_ok.1 h
  obtain ⟨a, ha, h⟩ := bind_eq_ok.1 h
  cases h
  exact on_append (on_append (full_ch _) (full_ch _)) (full_range ha)

theorem exponentSeq_full (n : Int) : Full (exponentSeq n) := by
  unfold exponentSeq
  by_cases h : n ≠ 0
  · rw [if_pos h]
    dsimp only
    refine on_append ?_ (full_wrap _)
    by_cases h1 : n.natAbs < 10
    · rw [if_pos h1]; exact on_append (full_ch _) (full_ch _)
    · rw [if_neg h1]; exact full_ch _
  · rw [if_neg h]; exact full_wrap _

theorem scientificLayout0_full {v : BigDec} {l : FloatLayout} (h : scientificLayout0 v = .ok l) :
    LayoutOn (· ≠ []) l := by
  unfold scientificLayout0 at h
  by_cases h0 : v.scale = 0
  · simp only [if_pos h0] at h
    by_cases h1 : v.digits.length > 1
    · rw [if_pos h1] at h
      obtain ⟨m, hm, h⟩ := bind_eq_ok.1 h
      cases h
      refine ⟨insertDot_full hm, ?_⟩
      rintro e ⟨⟩
      split_ifs <;> exact full_wrap _
    · rw [if_neg h1] at h
      cases h
      exact ⟨full_wrap _, by rintro e ⟨⟩; exact full_wrap _⟩
  · simp only [if_neg h0] at h
    by_cases h1 : v.digits.length > 1
    · rw [if_pos h1] at h
      obtain ⟨m, hm, h⟩ := bind_eq_ok.1 h
      cases h
      exact ⟨insertDot_full hm, by rintro e ⟨⟩; exact exponentSeq_full _⟩
    · rw [if_neg h1] at h
      cases h
      exact ⟨full_wrap _, by rintro e ⟨⟩; exact exponentSeq_full _⟩

theorem decimalLayout0_full {v : BigDec} {l : FloatLayout} (h : decimalLayout0 v = .ok l) :
    LayoutOn (· ≠ []) l := by
  unfold decimalLayout0 at h
  by_cases h0 : v.scale = 0
  · simp only [if_pos h0] at h
    cases h; exact ⟨full_wrap _, by simp⟩
  · simp only [if_neg h0] at h
    split at h
    · split at h
      · obtain ⟨m, hm, h⟩ := bind_eq_ok.1 h
        obtain ⟨r, hr, hm⟩ := bind_eq_ok.1 hm
        cases hm
        cases h
        exact ⟨on_prepend (on_prepend (full_wrap _) (on_repeated kind_nonempty.one hr)) (full_wrap _),
          by simp⟩
      · cases h; exact ⟨on_prepend (full_wrap _) (full_wrap _), by simp⟩
    · split at h
      · obtain ⟨a, ha, h⟩ := bind_eq_ok.1 h
        obtain ⟨b, hb, h⟩ := bind_eq_ok.1 h
        cases h
        exact ⟨on_append (on_append (full_range ha) (full_ch _))
          (full_range hb), by simp⟩
      · obtain ⟨r, hr, h⟩ := bind_eq_ok.1 h
        cases h
        exact ⟨on_append (full_wrap _) (on_repeated kind_nonempty.one hr), by simp⟩

theorem scientificLayout_full {v : BigDec} {p : Int} {l : FloatLayout}
    (h : scientificLayout v p = .ok l) : LayoutOn (· ≠ []) l := by
  unfold scientificLayout at h
  obtain ⟨x, _, h⟩ := bind_eq_ok.1 h
  exact scientificLayout0_full h

theorem decimalLayout_full {v : BigDec} {p : Int} {l : FloatLayout}
    (h : decimalLayout v p = .ok l) : LayoutOn (· ≠ []) l := by
  unfold decimalLayout at h
  split at h
  · split at h
    · exact decimalLayout0_full h
    · obtain ⟨x, _, h⟩ := bind_eq_ok.1 h
      exact decimalLayout0_full h
  · exact decimalLayout0_full h

theorem generalLayout_full {v : BigDec} {p : Int} {l : FloatLayout}
    (h : generalLayout v p = .ok l) : LayoutOn (· ≠ []) l := by
  unfold generalLayout at h
  split at h
  · exact decimalLayout_full h
  · exact scientificLayout_full h

end BigDecimalWrapper

theorem FloatForm.ofBigDecimal_full (u s : Int) : FormFull (FloatForm.ofBigDecimal u s) := by
  rintro p l (h | h | h | h)
  · exact BigDecimalWrapper.generalLayout_full h
  · exact BigDecimalWrapper.scientificLayout_full h
  · exact BigDecimalWrapper.decimalLayout_full h
  · cases h


theorem full_lazy {s : JStr} {n : Int} (hn : n = s.length) {a : Atomic} (h : Atomic.mkLazy s n = .ok a) :
    ∀ c ∈ a.calls, c ≠ [] := by
  unfold Atomic.mkLazy at h
  split_ifs at h with h0 h1 h2
  · cases h; simp [Atomic.calls]
  · obtain ⟨x, _, h⟩ := bind_eq_ok.1 h
    obtain ⟨c, _, h⟩ := bind_eq_ok.1 h
    cases h
    intro c hc
    rw [List.eq_of_mem_replicate hc]; simp
  · cases h
    intro c hc
    rw [Atomic.calls, List.mem_singleton] at hc
    subst hc
    rintro rfl
    exact h1 (by simpa using hn)

theorem LeafExpr.eval_wf (e : LeafExpr) {a : Atomic} (h : e.eval = .ok a) : a.WF := by
  have he := e.eval_spec
  cases hp : e.plain with
  | none => rw [hp] at he; obtain ⟨x, hx⟩ := he; rw [hx] at h; cases h
  | some t =>
    rw [hp] at he
    obtain ⟨b, h1, h2, _⟩ := he
    rw [h1] at h; cases h; exact h2

theorem LeafExpr.eval_full (e : LeafExpr) {a : Atomic} (h : e.eval = .ok a) : ∀ c ∈ a.calls, c ≠ [] := by
  induction e generalizing a with
  | empty => cases h; simp [Atomic.calls]
  | ch c => cases h; exact on_singles (Q := (· ≠ [])) (by simp) [c]
  | wrap s => cases h; exact on_leaf (by rw [wrapAtom_calls, (Atomic.wrap_spec s).2]) id
  | wrapRange s i j => exact on_leaf (wrapRange_calls h) id
  | repeated c n =>
    rw [LeafExpr.eval] at h
    intro x hx
    rw [mkRepeated_calls h] at hx
    rw [List.eq_of_mem_replicate hx]; simp
  | forArray a => cases h; exact on_singles (by simp) _
  | forArrayRange a st n =>
    obtain ⟨_, _, h⟩ := bind_eq_ok.1 h
    cases h; exact on_singles (by simp) _
  | lazy s => exact full_lazy rfl h
  | upper e ih =>
    obtain ⟨b, hb, h⟩ := bind_eq_ok.1 h
    intro c hc he
    have := leaf_upper (e.eval_wf hb) h c hc
    rw [he] at this; cases this
  | sub e i j ih =>
    obtain ⟨b, hb, h⟩ := bind_eq_ok.1 h
    exact leaf_sub kind_nonempty (e.eval_wf hb) (ih hb) h

theorem SeqExpr.eval_full (e : SeqExpr) {s : Seq} (h : e.eval = .ok s) : Full s := by
  induction e generalizing s with
  | leaf e =>
    obtain ⟨a, ha, h⟩ := bind_eq_ok.1 h
    cases h; exact on_atom (e.eval_full ha)
  | concat l r ihl ihr =>
    obtain ⟨a, h1, h⟩ := bind_eq_ok.1 h
    obtain ⟨b, h2, h⟩ := bind_eq_ok.1 h
    cases h
    intro c hc
    rw [mkConcat_calls] at hc
    rcases List.mem_append.1 hc with hc | hc
    · exact ihl h1 c hc
    · exact ihr h2 c hc
  | append l r ihl ihr =>
    obtain ⟨a, h1, h⟩ := bind_eq_ok.1 h
    obtain ⟨b, h2, h⟩ := bind_eq_ok.1 h
    cases h; exact on_append (ihl h1) (ihr h2)
  | prepend l r ihl ihr =>
    obtain ⟨a, h1, h⟩ := bind_eq_ok.1 h
    obtain ⟨b, h2, h⟩ := bind_eq_ok.1 h
    cases h; exact on_prepend (ihl h1) (ihr h2)
  | join es =>
    obtain ⟨as, ha, h⟩ := bind_eq_ok.1 h
    cases h
    have hall : ∀ (es : List LeafExpr) {as : List Atomic}, es.mapM LeafExpr.eval = .ok as →
        ∀ a ∈ as, ∀ c ∈ a.calls, c ≠ [] := by
      intro es
      induction es with
      | nil => intro as h; cases h; simp
      | cons e es ih =>
        intro as h
        rw [List.mapM_cons] at h
        obtain ⟨a, h1, h⟩ := bind_eq_ok.1 h
        obtain ⟨bs, h2, h⟩ := bind_eq_ok.1 h
        cases h
        intro x hx
        rcases List.mem_cons.1 hx with rfl | hx
        · exact e.eval_full h1
        · exact ih h2 x hx
    have := hall es ha
    unfold Seq.join
    split
    · intro c hc; cases hc
    · exact on_atom (this _ (by simp))
    · intro c hc
      obtain ⟨a, h1, h2⟩ := List.mem_flatMap.1 hc
      exact this a h1 c h2
  | upper e ih =>
    obtain ⟨a, h1, h⟩ := bind_eq_ok.1 h
    exact on_upper' kind_nonempty (e.eval_wf a h1).sane h

theorem Spec.Built.wellBehaved {e : Entry} (h : Spec.Built e) : WellBehaved e := by
  cases e with
  | prim p => trivial
  | ref o =>
    cases o with
    | seq q id => obtain ⟨x, hx⟩ := h; exact x.eval_wf q hx
    | traits t => exact h.elim
    | _ => trivial

theorem Prim.traits_full (jdk : JdkEnv) (ref : RefSlot) (p : Prim) : (p.traits jdk ref).Full := by
  cases p with
  | bool b => exact ⟨Prim.traits_wf jdk ref _, by rintro q ⟨⟩; exact full_wrap _, by rintro f ⟨⟩; exact FloatForm.ofDouble_full _⟩
  | char c => exact ⟨Prim.traits_wf jdk ref _, by rintro q ⟨⟩; exact full_ch _, by rintro f ⟨⟩; exact FloatForm.ofDouble_full _⟩
  | byte v => exact ⟨Prim.traits_wf jdk ref _, by rintro q ⟨⟩; exact full_wrap _, by rintro f ⟨⟩; exact FloatForm.ofDouble_full _⟩
  | short v => exact ⟨Prim.traits_wf jdk ref _, by rintro q ⟨⟩; exact full_wrap _, by rintro f ⟨⟩; exact FloatForm.ofDouble_full _⟩
  | int v =>
    refine ⟨Prim.traits_wf jdk ref _, ?_, by rintro f ⟨⟩; exact FloatForm.ofDouble_full _⟩
    intro q hq
    have h1 := v.toInt_lt; have h2 := v.le_toInt
    have hn := stringSize32_eq (v := v.toInt) (by omega)
    obtain ⟨a, ha, hw, _⟩ := mkLazy_text (intToString v.toInt) hn
    simp only [Prim.traits, intTraits, ha, bind_ok] at hq
    cases hq; exact on_atom (full_lazy (by assumption) ha)
  | long v =>
    refine ⟨Prim.traits_wf jdk ref _, ?_, by rintro f ⟨⟩; exact FloatForm.ofDouble_full _⟩
    intro q hq
    have h1 := v.toInt_lt; have h2 := v.le_toInt
    have hn := stringSize64_eq (v := v.toInt) (by omega)
    obtain ⟨a, ha, hw, _⟩ := mkLazy_text (intToString v.toInt) hn
    simp only [Prim.traits, longTraits, ha, bind_ok] at hq
    cases hq; exact on_atom (full_lazy (by assumption) ha)
  | float v => exact ⟨Prim.traits_wf jdk ref _, by rintro q ⟨⟩; exact full_wrap _, by rintro f ⟨⟩; exact FloatForm.ofDouble_full _⟩
  | double v => exact ⟨Prim.traits_wf jdk ref _, by rintro q ⟨⟩; exact full_wrap _, by rintro f ⟨⟩; exact FloatForm.ofDouble_full _⟩

theorem Spec.Built.full {e : Entry} (h : Spec.Built e) (jdk : JdkEnv) : (e.toTraits jdk).Full := by
  have hwf : (e.toTraits jdk).WF := h.wellBehaved.wf jdk
  cases e with
  | prim p => exact Prim.traits_full jdk _ p
  | ref o =>
    cases o with
    | null => exact ⟨hwf, by rintro q ⟨⟩; exact full_wrap _, by rintro f ⟨⟩⟩
    | boxed p id => exact Prim.traits_full jdk _ p
    | string s id =>
      refine ⟨hwf, by rintro q ⟨⟩; exact full_wrap _, ?_⟩
      intro f hf
      simp only [Entry.toTraits, Obj.toTraits, charSequenceTraits] at hf
      split at hf <;> cases hf
      exact FloatForm.ofDouble_full _
    | seq q id =>
      refine ⟨hwf, by rintro q ⟨⟩; obtain ⟨x, hx⟩ := h; exact x.eval_full hx, ?_⟩
      intro f hf
      obtain ⟨s, _, hf⟩ := bind_eq_ok.1 hf
      simp only [charSequenceTraits] at hf
      split at hf <;> cases hf
      exact FloatForm.ofDouble_full _
    | charSeq s id =>
      refine ⟨hwf, ?_, ?_⟩
      · intro q hq
        obtain ⟨a, ha, hw, _⟩ := mkLazy_text s rfl
        simp only [Entry.toTraits, Obj.toTraits, charSequenceTraits, ha, bind_ok] at hq
        cases hq; exact on_atom (full_lazy rfl ha)
      · intro f hf
        simp only [Entry.toTraits, Obj.toTraits, charSequenceTraits] at hf
        split at hf <;> cases hf
        exact FloatForm.ofDouble_full _
    | bigInteger v id =>
      exact ⟨hwf, by rintro q ⟨⟩; exact full_wrap _, by rintro f ⟨⟩; exact FloatForm.ofBigDecimal_full _ _⟩
    | bigDecimal u s id =>
      exact ⟨hwf, by rintro q ⟨⟩; exact full_wrap _, by rintro f ⟨⟩; exact FloatForm.ofBigDecimal_full _ _⟩
    | temporal t text id =>
      refine ⟨hwf, ?_, ?_⟩
      · intro q hq
        obtain ⟨x, _, hq⟩ := bind_eq_ok.1 hq
        cases hq; exact full_wrap _
      · intro f hf
        simp only [Entry.toTraits, Obj.toTraits, temporalTraits] at hf
        split at hf <;> cases hf
        exact FloatForm.ofDouble_full _
    | traits t => exact h.elim
    | object kind text id =>
      refine ⟨hwf, ?_, ?_⟩
      · intro q hq
        obtain ⟨x, _, hq⟩ := bind_eq_ok.1 hq
        cases hq; exact full_wrap _
      · intro f hf
        simp only [Entry.toTraits, Obj.toTraits, objectTraits] at hf
        split at hf <;> cases hf <;> exact FloatForm.ofDouble_full _



/-! ### Arguments written in one call -/

theorem inOne_of {cs : List JStr} (h1 : cs.length ≤ 1) (h2 : ∀ c ∈ cs, c ≠ []) : cs = inOne cs.flatten := by
  match cs with
  | [] => rfl
  | [c] =>
    have : c ≠ [] := h2 c (by simp)
    simp [inOne, this]
  | _ :: _ :: _ => simp at h1

theorem lump_sub {a b : Atomic} (hw : a.WF) (h : a.calls.length ≤ 1) {i j : Int}
    (hs : a.subSequence i j = .ok b) : b.calls.length ≤ 1 := by
  have pos : ∀ {n : Nat}, checkPositionIndexes i j n = .ok () → 0 ≤ i ∧ i ≤ j ∧ j ≤ n := by
    intro n h0
    unfold checkPositionIndexes at h0
    split_ifs at h0 with hx
    omega
  cases a with
  | failing o n e => exact hw.elim
  | empty =>
    simp only [Atomic.subSequence] at hs
    split_ifs at hs
    cases hs; simp [Atomic.calls]
  | repeated x n =>
    simp only [Atomic.subSequence] at hs
    obtain ⟨_, h0, hs⟩ := bind_eq_ok.1 hs
    have := pos h0
    simp only [Atomic.calls, List.length_replicate] at h
    split_ifs at hs <;> cases hs
    · simp [Atomic.calls]
    · simp only [Atomic.calls, List.length_replicate]; omega
  | strView s st n up =>
    simp only [Atomic.subSequence] at hs
    obtain ⟨_, h0, hs⟩ := bind_eq_ok.1 hs
    have := pos h0
    split_ifs at hs with h1 h2
    · cases hs; simp [Atomic.calls]
    · obtain ⟨x, _, hs⟩ := bind_eq_ok.1 hs
      cases hs
      simp [Atomic.ch, Atomic.calls]
    · cases hs
      cases up with
      | true =>
        simp only [Atomic.WF] at hw
        simp only [Atomic.calls, Atomic.text, List.length_map, List.length_take, List.length_drop] at h ⊢
        simp at h ⊢
        omega
      | false => simp [Atomic.calls]
  | charArray s st n up =>
    simp only [Atomic.subSequence] at hs
    obtain ⟨_, h0, hs⟩ := bind_eq_ok.1 hs
    have := pos h0
    split_ifs at hs with h1 h2
    · cases hs; simp [Atomic.calls]
    · obtain ⟨x, _, hs⟩ := bind_eq_ok.1 hs
      cases hs
      simp [Atomic.ch, Atomic.calls]
    · cases hs
      simp only [Atomic.WF] at hw
      simp only [Atomic.calls, Atomic.text, List.length_map] at h ⊢
      simp at h ⊢
      omega
  | lazy out n =>
    simp only [Atomic.subSequence] at hs
    obtain ⟨_, h0, hs⟩ := bind_eq_ok.1 hs
    obtain ⟨s, _, hs⟩ := bind_eq_ok.1 hs
    rw [wrapRange_calls hs, block, inOne]
    split_ifs <;> simp

/-- A leaf that is written in at most one call. -/
def Lump (q : Seq) : Prop := ∃ a, q = .atom a ∧ a.calls.length ≤ 1

theorem lump_wrap (t : JStr) : Lump (Seq.wrap t) := by
  refine ⟨_, rfl, ?_⟩
  rw [wrapAtom_calls, block, inOne]
  split_ifs <;> simp

theorem lump_lazy {s : JStr} {n : Int} {a : Atomic} (h : Atomic.mkLazy s n = .ok a) : Lump (.atom a) := by
  refine ⟨a, rfl, ?_⟩
  unfold Atomic.mkLazy at h
  split_ifs at h with h0 h1 h2
  · cases h; simp [Atomic.calls]
  · obtain ⟨x, _, h⟩ := bind_eq_ok.1 h
    obtain ⟨c, _, h⟩ := bind_eq_ok.1 h
    cases h
    simp [Atomic.ch, Atomic.calls]
  · cases h; simp [Atomic.calls]

theorem Prim.asSeq_lump (jdk : JdkEnv) (ref : RefSlot) (p : Prim) {q : Seq}
    (hq : (p.traits jdk ref).asSeq = .ok q) : Lump q := by
  cases p with
  | int v => obtain ⟨a, ha, h⟩ := bind_eq_ok.1 hq; cases h; exact lump_lazy ha
  | long v => obtain ⟨a, ha, h⟩ := bind_eq_ok.1 hq; cases h; exact lump_lazy ha
  | char c => cases hq; exact ⟨_, rfl, by simp [Atomic.ch, Atomic.calls]⟩
  | _ => cases hq; exact lump_wrap _

theorem Entry.asSeq_lump (jdk : JdkEnv) {e : Entry} (h1 : ∀ q id, e ≠ .ref (.seq q id))
    (h2 : ∀ t, e ≠ .ref (.traits t)) {q : Seq} (hq : (e.toTraits jdk).asSeq = .ok q) : Lump q := by
  cases e with
  | prim p => exact p.asSeq_lump jdk _ hq
  | ref o =>
    cases o with
    | null => cases hq; exact lump_wrap _
    | boxed p id => exact p.asSeq_lump jdk _ hq
    | string s id => cases hq; exact lump_wrap _
    | seq q id => exact absurd rfl (h1 q id)
    | charSeq s id => obtain ⟨a, ha, h⟩ := bind_eq_ok.1 hq; cases h; exact lump_lazy ha
    | bigInteger v id => cases hq; exact lump_wrap _
    | bigDecimal u s id => cases hq; exact lump_wrap _
    | temporal t text id => obtain ⟨x, _, h⟩ := bind_eq_ok.1 hq; cases h; exact lump_wrap _
    | traits t => exact absurd rfl (h2 t)
    | object kind text id => obtain ⟨x, _, h⟩ := bind_eq_ok.1 hq; cases h; exact lump_wrap _

theorem Spec.TextReading.foreign {jdk : JdkEnv} {e : Entry} {r : Res JStr} (h : TextReading jdk e r) :
    (∀ q id, e ≠ .ref (.seq q id)) ∧ ∀ t, e ≠ .ref (.traits t) := by
  cases h with
  | shows h =>
    cases h with
    | number hx => cases hx <;> simp
    | bool hx => cases hx <;> simp
    | char hx => cases hx <;> simp
    | _ => simp
  | float h => cases h <;> simp
  | double h => cases h <;> simp
  | _ => simp

theorem Spec.TextReading.built {jdk : JdkEnv} {e : Entry} {r : Res JStr} (h : TextReading jdk e r) : Built e := by
  obtain ⟨h1, h2⟩ := h.foreign
  cases e with
  | prim p => trivial
  | ref o =>
    cases o with
    | seq q id => exact absurd rfl (h1 q id)
    | traits t => exact absurd rfl (h2 t)
    | _ => trivial

/-! ### One piece -/

theorem justify_calls {ctx : FormatContext} {s r : Seq} (h : SeqFormatter.spaceJustify ctx s = .ok r) :
    ∃ n : Nat, n = (SeqFormatter.width ctx - s.length).toNat ∧ r.calls =
      if ctx.hasFlag .leftJustify then s.calls ++ oneByOne (List.replicate n (ch! ' '))
      else oneByOne (List.replicate n (ch! ' ')) ++ s.calls := by
  refine ⟨_, rfl, ?_⟩
  unfold SeqFormatter.spaceJustify at h
  by_cases hw : SeqFormatter.width ctx > s.length
  · rw [if_pos hw] at h
    obtain ⟨p, hp, h⟩ := bind_eq_ok.1 h
    obtain ⟨c1, c2⟩ := repeated_calls hp
    by_cases hl : ctx.hasFlag .leftJustify = true
    · rw [if_pos hl] at h ⊢
      cases h
      rw [append_calls (by rw [c2]; simp), c1]
      simp [oneByOne]
    · rw [if_neg hl] at h ⊢
      cases h
      rw [prepend_calls (by rw [c2]; simp), c1]
      simp [oneByOne]
  · rw [if_neg hw] at h
    cases h
    rw [show (SeqFormatter.width ctx - s.length).toNat = 0 by omega]
    simp [oneByOne]

theorem zeroFill_calls {n : Int} {s r : Seq} (h : SeqFormatter.zeroFill n s = .ok r) :
    r.calls = oneByOne (List.replicate (n - s.length).toNat (ch! '0')) ++ s.calls := by
  unfold SeqFormatter.zeroFill at h
  split_ifs at h with hn
  · obtain ⟨p, hp, h⟩ := bind_eq_ok.1 h
    obtain ⟨c1, c2⟩ := repeated_calls hp
    cases h
    rw [prepend_calls (by rw [c2]; simp), c1]
    simp [oneByOne]
  · cases h
    rw [show (n - s.length).toNat = 0 by omega]
    simp [oneByOne]

theorem sign_calls (ctx : FormatContext) (s : Seq) (neg : Bool) :
    ∃ t : JStr, (∀ c ∈ t, c ∈ js! " +-") ∧ (SeqFormatter.sign ctx s neg).calls = oneByOne t ++ s.calls := by
  have one : ∀ c, (s.prepend (Seq.ch c)).calls = oneByOne [c] ++ s.calls := by
    intro c
    rw [prepend_calls (by intro h; cases h)]
    simp [oneByOne, Seq.ch, calls, flat, Atomic.ch, Atomic.calls]
  unfold SeqFormatter.sign
  split_ifs
  · exact ⟨_, by simp, one _⟩
  · exact ⟨_, by simp, one _⟩
  · exact ⟨_, by simp, one _⟩
  · exact ⟨[], by simp, by simp [oneByOne]⟩

end FastPrintf
