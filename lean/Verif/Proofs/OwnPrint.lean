/-
Ropes over leaves of any class: histories, printing, other objects, and the library's own leaves.
-/
import Verif.Proofs.OwnSeq

namespace FastPrintf.Own

variable {α : Type} {ops : LeafOps α} {Good : α → Prop} {txt : α → JStr}

/-- The pieces that are not empty. -/
def nonEmpty (l : List JStr) : List JStr := l.filter (fun t => t ≠ [])

theorem nonEmpty_append (l m : List JStr) : nonEmpty (l ++ m) = nonEmpty l ++ nonEmpty m := List.filter_append ..

theorem nonEmpty_flatten (l : List JStr) : (nonEmpty l).flatten = l.flatten := by
  induction l with
  | nil => rfl
  | cons t l ih =>
    unfold nonEmpty at ih ⊢
    by_cases h : t = []
    · subst h; simpa using ih
    · rw [List.filter_cons_of_pos (by simpa using h), List.flatten_cons, List.flatten_cons, ih]

theorem nonEmpty_of_flatten {l : List JStr} (h : l.flatten = []) : nonEmpty l = [] := by
  unfold nonEmpty
  rw [List.filter_eq_nil_iff]
  intro t ht
  simpa using List.flatten_eq_nil_iff.1 h t ht

theorem nonEmpty_map (f : JChar → JChar) (l : List JStr) : nonEmpty (l.map (·.map f)) = (nonEmpty l).map (·.map f) := by
  unfold nonEmpty
  rw [List.filter_map]
  congr 1
  apply List.filter_congr
  intro t _; simp

theorem sliceLength_nonEmpty (l : List JStr) (i j : Nat) : sliceLength (nonEmpty l) i j = sliceLength l i j := by
  induction l generalizing i j with
  | nil => rfl
  | cons t l ih =>
    unfold nonEmpty at ih ⊢
    by_cases h : t = []
    · subst h
      rw [List.filter_cons_of_neg (by simp), ih]
      conv_rhs => rw [sliceLength]
      simp
    · rw [List.filter_cons_of_pos (by simpa using h), sliceLength, sliceLength]
      simp only [ih]

theorem sliceReports_congr {l m : List JStr} (h : nonEmpty l = nonEmpty m) (i j : Nat) :
    sliceReports l i j = sliceReports m i j := by
  rw [sliceReports, sliceReports, ← nonEmpty_flatten l, ← nonEmpty_flatten m, ← sliceLength_nonEmpty l,
    ← sliceLength_nonEmpty m, h]

namespace Rope

theorem text_eq (r : Rope α) : r.text txt = (r.flat.map txt).flatten := by rw [text, List.flatMap_def]

variable (F : Faithful ops Good txt)
include F

theorem append_pieces {l r : Rope α} (hl : l.WF ops Good txt) (hr : r.WF ops Good txt) :
    nonEmpty ((l.append ops r).flat.map txt) = nonEmpty (l.flat.map txt) ++ nonEmpty (r.flat.map txt) := by
  have hE := hr.isEmpty F
  have key : nonEmpty ((if r.isEmpty ops then l else mkConcat ops l r).flat.map txt) =
      nonEmpty (l.flat.map txt) ++ nonEmpty (r.flat.map txt) := by
    by_cases h1 : r.isEmpty ops = true
    · rw [if_pos h1, nonEmpty_of_flatten (l := r.flat.map txt) (by rw [← text_eq]; exact hE.1 h1), List.append_nil]
    · rw [if_neg h1, mkConcat_flat, List.map_append, nonEmpty_append]
  cases l with
  | atom a =>
    rw [append]
    by_cases h1 : ops.isEmptySeq a = true
    · rw [if_pos h1]; simp [flat, nonEmpty, F.emptySeq a hl h1]
    · rw [if_neg h1]; exact key
  | concat ll lr n k => exact key
  | array es n => exact key
  | other n k => exact hl.elim

theorem prepend_pieces {l r : Rope α} (hl : l.WF ops Good txt) (hr : r.WF ops Good txt) :
    nonEmpty ((l.prepend ops r).flat.map txt) = nonEmpty (r.flat.map txt) ++ nonEmpty (l.flat.map txt) := by
  have hE := hr.isEmpty F
  have key : nonEmpty ((if r.isEmpty ops then l else mkConcat ops r l).flat.map txt) =
      nonEmpty (r.flat.map txt) ++ nonEmpty (l.flat.map txt) := by
    by_cases h1 : r.isEmpty ops = true
    · rw [if_pos h1, nonEmpty_of_flatten (l := r.flat.map txt) (by rw [← text_eq]; exact hE.1 h1), List.nil_append]
    · rw [if_neg h1, mkConcat_flat, List.map_append, nonEmpty_append]
  cases l with
  | atom a =>
    rw [prepend]
    by_cases h1 : ops.isEmptySeq a = true
    · rw [if_pos h1]; simp [flat, nonEmpty, F.emptySeq a hl h1]
    · rw [if_neg h1]; exact key
  | concat ll lr n k => exact key
  | array es n => exact key
  | other n k => exact hl.elim

theorem eval_spec (e : Expr α) (h : e.AllGood Good) :
    ∃ r, e.eval ops = .ok r ∧ r.WF ops Good txt ∧ nonEmpty (r.flat.map txt) = nonEmpty (e.pieces txt) := by
  induction e with
  | leaf a => exact ⟨.atom a, rfl, h, rfl⟩
  | concat l r ihl ihr =>
    obtain ⟨x, x1, x2, x3⟩ := ihl h.1
    obtain ⟨y, y1, y2, y3⟩ := ihr h.2
    refine ⟨mkConcat ops x y, by rw [Expr.eval, x1, bind_ok, y1]; rfl, mkConcat_wf x2 y2, ?_⟩
    rw [mkConcat_flat, List.map_append, nonEmpty_append, x3, y3, Expr.pieces, nonEmpty_append]
  | append l r ihl ihr =>
    obtain ⟨x, x1, x2, x3⟩ := ihl h.1
    obtain ⟨y, y1, y2, y3⟩ := ihr h.2
    refine ⟨x.append ops y, by rw [Expr.eval, x1, bind_ok, y1]; rfl, (append_spec F x2 y2).1, ?_⟩
    rw [append_pieces F x2 y2, x3, y3, Expr.pieces, nonEmpty_append]
  | prepend l r ihl ihr =>
    obtain ⟨x, x1, x2, x3⟩ := ihl h.1
    obtain ⟨y, y1, y2, y3⟩ := ihr h.2
    refine ⟨x.prepend ops y, by rw [Expr.eval, x1, bind_ok, y1]; rfl, (prepend_spec F x2 y2).1, ?_⟩
    rw [prepend_pieces F x2 y2, x3, y3, Expr.pieces, nonEmpty_append]
  | join es =>
    refine ⟨_, rfl, (join_spec F es h).1, ?_⟩
    match es with
    | [] => simp [join, flat, nonEmpty, F.empty.2, Expr.pieces]
    | [a] => rfl
    | a :: b :: es => rfl
  | upper e ih =>
    obtain ⟨x, x1, x2, x3⟩ := ih h
    obtain ⟨u, u1, u2, u3, u4⟩ := upperCase_pieces F x2.sane
    refine ⟨u, by rw [Expr.eval, x1, bind_ok, u1], u4 x2, ?_⟩
    rw [Expr.pieces, nonEmpty_map, ← x3, ← nonEmpty_map, u3, List.map_map]; rfl

omit F in
/-- A rope with its text and pieces as given. -/
theorem pieces_text {r : Rope α} {l : List JStr} (h : nonEmpty (r.flat.map txt) = nonEmpty l) :
    r.text txt = l.flatten := by
  rw [text_eq, ← nonEmpty_flatten, h, nonEmpty_flatten]

theorem spaceJustify_spec (ctx : FormatContext) {v : Rope α} (h : v.Sane Good) (h0 : 0 ≤ v.length ops) :
    (spaceJustify ops ctx v).Sane Good ∧
      (spaceJustify ops ctx v).text txt =
        blankFill ctx.flags.leftJustify (ctx.width.toNat - (v.length ops).toNat) (v.text txt) := by
  have hw := SeqFormatter.width_toNat ctx
  unfold spaceJustify
  by_cases h1 : SeqFormatter.width ctx > v.length ops
  · rw [if_pos h1]
    have hp := F.repeated 32 (SeqFormatter.width ctx - v.length ops).toNat (by omega)
    have hn : (SeqFormatter.width ctx - v.length ops).toNat = ctx.width.toNat - (v.length ops).toNat := by omega
    have hpe : ¬ (Rope.atom (ops.repeated 32 (SeqFormatter.width ctx - v.length ops).toNat)).isEmpty ops = true := by
      rw [Rope.isEmpty, F.isEmpty _ hp.1, hp.2]
      intro h; have := congrArg List.length h; simp at this; omega
    have ptxt : (Rope.atom (ops.repeated 32 (SeqFormatter.width ctx - v.length ops).toNat)).text txt =
        List.replicate (ctx.width.toNat - (v.length ops).toNat) 32 := by
      rw [← hn]; simpa [text, flat] using hp.2
    simp only [SeqFormatter.hasFlag_left]
    by_cases hf : ctx.flags.leftJustify = true
    · simp only [if_pos hf, blankFill]
      have key : ∀ q : Rope α, q = mkConcat ops v (.atom (ops.repeated 32 (SeqFormatter.width ctx - v.length ops).toNat)) →
          q.Sane Good ∧ q.text txt = v.text txt ++ List.replicate (ctx.width.toNat - (v.length ops).toNat) 32 := by
        rintro q rfl
        refine ⟨mkConcat_sane h hp.1, ?_⟩
        rw [← ptxt]; simp [text, mkConcat_flat]
      cases v with
      | atom a =>
        rw [append]
        by_cases h2 : ops.isEmptySeq a = true
        · rw [if_pos h2]
          refine ⟨hp.1, ?_⟩
          rw [ptxt]; simp [text, flat, F.emptySeq a h h2]
        · rw [if_neg h2, if_neg hpe]; exact key _ rfl
      | concat l r n k => rw [append, if_neg hpe]; exact key _ rfl; simp
      | array es n => rw [append, if_neg hpe]; exact key _ rfl; simp
      | other n k => exact h.elim
    · simp only [if_neg hf, blankFill]
      have key : ∀ q : Rope α, q = mkConcat ops (.atom (ops.repeated 32 (SeqFormatter.width ctx - v.length ops).toNat)) v →
          q.Sane Good ∧ q.text txt = List.replicate (ctx.width.toNat - (v.length ops).toNat) 32 ++ v.text txt := by
        rintro q rfl
        refine ⟨mkConcat_sane hp.1 h, ?_⟩
        rw [← ptxt]; simp [text, mkConcat_flat]
      cases v with
      | atom a =>
        rw [prepend]
        by_cases h2 : ops.isEmptySeq a = true
        · rw [if_pos h2]
          refine ⟨hp.1, ?_⟩
          rw [ptxt]; simp [text, flat, F.emptySeq a h h2]
        · rw [if_neg h2, if_neg hpe]; exact key _ rfl
      | concat l r n k => rw [prepend, if_neg hpe]; exact key _ rfl; simp
      | array es n => rw [prepend, if_neg hpe]; exact key _ rfl; simp
      | other n k => exact h.elim
  · rw [if_neg h1]
    refine ⟨h, ?_⟩
    rw [show ctx.width.toNat - (v.length ops).toNat = 0 by omega]
    simp [blankFill]

open SeqFormatter in
theorem formatS_spec (ctx : FormatContext) (hp : PrecOK ctx) {v : Rope α} {l : List JStr} (h : v.WF ops Good txt)
    (hl : nonEmpty (v.flat.map txt) = nonEmpty l) :
    ∃ q, formatS ops ctx v = .ok q ∧ q.Sane Good ∧ q.text txt =
      blankFill ctx.flags.leftJustify (ctx.width.toNat - shownLength l (precOf ctx)) (shownText l (precOf ctx)) := by
  have ht := pieces_text hl
  have hlen := h.length_text F
  rw [ht] at hlen
  unfold formatS
  by_cases hc : (ctx.isPrecisionSet && decide (ctx.precision < v.length ops)) = true
  · rw [if_pos hc]
    rw [Bool.and_eq_true, isPrecisionSet_iff, decide_eq_true_eq] at hc
    have hge : 0 ≤ ctx.precision := by
      rcases hp with h | h
      · exact absurd h hc.1
      · exact h
    have hpo : precOf ctx = some ctx.precision.toNat := by simp [precOf, hc.1]
    obtain ⟨t, t1, t2, t3, t4⟩ := subSequence_ok F h 0 ctx.precision.toNat (by omega) (by rw [ht]; omega)
    rw [show ((0 : Nat) : Int) = 0 from rfl, Int.toNat_of_nonneg hge] at t1
    have hj := spaceJustify_spec F ctx t2 (by rw [t4]; omega)
    refine ⟨_, by rw [t1, bind_ok]; rfl, hj.1, ?_⟩
    rw [hj.2, t3, t4, ht, hpo, Int.toNat_natCast, sliceReports_congr hl, sliceReports, if_neg (by omega),
      sliceLength_cut _ _ (by omega), shownLength, shownText]
    rw [if_pos (by omega)]
    simp [Spec.sub]
  · rw [if_neg hc]
    rw [Bool.and_eq_true, isPrecisionSet_iff, decide_eq_true_eq] at hc
    have hj := spaceJustify_spec F ctx h.sane (by rw [hlen]; omega)
    refine ⟨_, rfl, hj.1, ?_⟩
    rw [hj.2, ht, hlen, Int.toNat_natCast]
    by_cases hu : ctx.precision = UNSET
    · rw [show precOf ctx = none by simp [precOf, hu], shownLength, shownText, Option.getD_none, List.take_length]
    · have hge : ¬ ctx.precision < v.length ops := fun h => hc ⟨hu, h⟩
      have hpo : precOf ctx = some ctx.precision.toNat := by simp [precOf, hu]
      rw [hpo, shownLength, shownText]
      simp only [Option.getD_some]
      rw [if_neg (by omega), List.take_of_length_le (by omega)]

open SeqFormatter in
theorem printS_spec (ctx : FormatContext) (hp : PrecOK ctx) (up : Bool) {v : Rope α} {l : List JStr}
    (h : v.WF ops Good txt) (hl : nonEmpty (v.flat.map txt) = nonEmpty l) (sb : JStr) :
    printS ops ctx up v sb = .ok (sb ++ (blankFill ctx.flags.leftJustify
      (ctx.width.toNat - shownLength l (precOf ctx)) (shownText l (precOf ctx))).map
        (fun c => if up then Spec.upper c else c)) := by
  obtain ⟨q, q1, q2, q3⟩ := formatS_spec F ctx hp h hl
  rw [printS, q1, bind_ok]
  cases up with
  | false =>
    simp only [Bool.false_eq_true, if_false, bind_ok]
    rw [q2.appendToSB F, q3]; simp
  | true =>
    obtain ⟨u, u1, u2, u3, _⟩ := upperCase_pieces F q2
    simp only [if_true]
    rw [u1, bind_ok, u2.appendToSB F, text_eq, u3, ← q3, text_eq]
    simp [List.map_flatten, Function.comp_def]

end Rope

section other
open Rope

theorem Mixed.full {r : Rope α} (h : Mixed ops r) : r.Full := by
  induction h with
  | leaf a => trivial
  | joined es =>
    match es with
    | [] => trivial
    | [a] => trivial
    | a :: b :: es => exact fun h => by cases h
  | other n k => trivial
  | @concat l r _ _ ihl ihr =>
    cases l with
    | concat ll lr n k => exact ⟨ihl.1, ihl.2, ihr⟩
    | atom a => exact ⟨ihl, ihr⟩
    | array es n => exact ⟨ihl, ihr⟩
    | other n k => exact ⟨ihl, ihr⟩

/-- The stored lengths are the sums. -/
def Summed (ops : LeafOps α) : Rope α → Prop
  | .atom _ => True
  | .concat l r n _ => Summed ops l ∧ Summed ops r ∧ n = l.length ops + r.length ops
  | .array es n => n = (es.map ops.length).sum
  | .other _ _ => True

theorem Summed.total {r : Rope α} (h : Summed ops r) : r.length ops = r.total ops := by
  induction r with
  | atom a => rfl
  | concat l r n k ihl ihr => rw [Rope.length, h.2.2, ihl h.1, ihr h.2.1]; rfl
  | array es n => exact h
  | other n k => rfl

theorem Mixed.summed {r : Rope α} (h : Mixed ops r) : Summed ops r := by
  induction h with
  | leaf a => trivial
  | joined es =>
    match es with
    | [] => trivial
    | [a] => trivial
    | a :: b :: es => rfl
  | other n k => trivial
  | @concat l r _ _ ihl ihr =>
    cases l with
    | concat ll lr n k => exact ⟨ihl.1, ⟨ihl.2.1, ihr, rfl⟩, rfl⟩
    | atom a => exact ⟨ihl, ihr, rfl⟩
    | array es n => exact ⟨ihl, ihr, rfl⟩
    | other n k => exact ⟨ihl, ihr, rfl⟩

theorem upTo_fault (r : Rope α) : r.upToOther.fault = none ∨ r.upToOther.fault = some .classCast := by
  induction r with
  | atom a => exact .inl rfl
  | concat l r n k ihl ihr =>
    rw [Rope.upToOther, Walk.andThen]
    rcases ihl with h | h
    · rw [h]; exact ihr
    · rw [h]; exact .inr rfl
  | array es n => exact .inl rfl
  | other n k => exact .inr rfl

end other

section library
open Rope

theorem library_faithful : Faithful libraryLeaves Atomic.WF Atomic.text where
  length a h := Atomic.length_text h
  isEmpty a h := by
    change (a.length == 0) = true ↔ _
    rw [Atomic.length_text h]; simp
  charAt a h i c hi := by
    obtain ⟨h1, h2⟩ := List.getElem?_eq_some_iff.1 hi
    have := Atomic.charAt_ok h (i := i) ⟨by omega, by omega⟩
    change a.charAt i = _
    rw [this, Int.toNat_natCast, hi]; rfl
  charAt_out a h i hi := Atomic.charAt_err h (i := i) (by omega)
  sub a h i j hij hj := by
    obtain ⟨b, h1, h2, h3⟩ := Atomic.subSequence_ok h (i := i) (j := j) ⟨by omega, by omega, by omega⟩
    exact ⟨b, h1, h2, by simpa using h3⟩
  sub_out a h i j hij := Atomic.subSequence_err h hij
  upper a h := Atomic.upperCase_ok h
  indexOf a h c := Atomic.indexOf_ok h c
  toBuilder a h sb := Atomic.appendToSB_ok h sb
  toAppendable a h := Atomic.appendToCalls_ok h
  toStr a h := Atomic.toStr_ok h
  repeated c n h := ⟨h, rfl⟩
  empty := ⟨trivial, rfl⟩
  emptySeq a h he := by
    cases a <;> first | rfl | (exact absurd he (by simp [libraryLeaves]))

theorem ofSeq_leaves {s : Seq} (h : s.Sane) : (ofSeq s).leaves = ⟨s.flat, none⟩ := by
  have hs : ∀ s : Seq, s.Sane → (ofSeq s).Sane Atomic.WF ∧ (ofSeq s).flat = s.flat := by
    intro s
    induction s with
    | atom a => exact fun h => ⟨h, rfl⟩
    | concat l r n k ihl ihr =>
      intro h
      exact ⟨⟨(ihl h.1).1, (ihr h.2.1).1⟩, by rw [ofSeq, Rope.flat, (ihl h.1).2, (ihr h.2.1).2]; rfl⟩
    | array es n => exact fun h => ⟨⟨h.1, h.2.1⟩, rfl⟩
  rw [(hs s h).1.leaves, (hs s h).2]

theorem ofSeq_length (s : Seq) : (ofSeq s).length libraryLeaves = s.length := by cases s <;> rfl

theorem ofSeq_count (s : Seq) : (ofSeq s).elementCount = s.elementCount := by cases s <;> rfl

theorem ofSeq_isEmpty (s : Seq) : (ofSeq s).isEmpty libraryLeaves = s.isEmpty := by cases s <;> rfl

theorem ofSeq_mkConcat (l r : Seq) : ofSeq (Seq.mkConcat l r) = mkConcat libraryLeaves (ofSeq l) (ofSeq r) := by
  have h0 : ∀ l r : Seq, ofSeq (Seq.concat0 l r) = concat0 libraryLeaves (ofSeq l) (ofSeq r) := by
    intro l r
    simp only [Seq.concat0, ofSeq, concat0, ofSeq_length, ofSeq_count]
  cases l with
  | atom a => exact h0 _ _
  | concat ll lr n k => simp only [Seq.mkConcat, ofSeq, mkConcat, h0]
  | array es n => exact h0 _ _

theorem ofSeq_append (l r : Seq) : ofSeq (l.append r) = (ofSeq l).append libraryLeaves (ofSeq r) := by
  have key : ofSeq (if r.isEmpty then l else Seq.mkConcat l r) =
      if (ofSeq r).isEmpty libraryLeaves then ofSeq l else mkConcat libraryLeaves (ofSeq l) (ofSeq r) := by
    rw [ofSeq_isEmpty, ← ofSeq_mkConcat]
    split_ifs <;> rfl
  cases l with
  | atom a => cases a <;> first | rfl | exact key
  | concat ll lr n k => exact key
  | array es n => exact key

theorem ofSeq_prepend (l r : Seq) : ofSeq (l.prepend r) = (ofSeq l).prepend libraryLeaves (ofSeq r) := by
  have key : ofSeq (if r.isEmpty then l else Seq.mkConcat r l) =
      if (ofSeq r).isEmpty libraryLeaves then ofSeq l else mkConcat libraryLeaves (ofSeq r) (ofSeq l) := by
    rw [ofSeq_isEmpty, ← ofSeq_mkConcat]
    split_ifs <;> rfl
  cases l with
  | atom a => cases a <;> first | rfl | exact key
  | concat ll lr n k => exact key
  | array es n => exact key

theorem ofSeq_join (es : List Atomic) : ofSeq (Seq.join es) = join libraryLeaves es := by
  match es with
  | [] => rfl
  | [a] => rfl
  | a :: b :: es => rfl

theorem charAtLoop_library (es : List Atomic) (i : Int) :
    charAtLoop libraryLeaves none es i = Seq.charAtLoop es i := by
  induction es generalizing i with
  | nil => rfl
  | cons a es ih => rw [charAtLoop, Seq.charAtLoop, ih]; rfl

theorem subLoop_library (es : List Atomic) (i j : Int) (buf : List Atomic) :
    subLoop libraryLeaves none es i j buf = Seq.subLoop es i j buf := by
  induction es generalizing i j buf with
  | nil => rfl
  | cons a es ih =>
    rw [subLoop, Seq.subLoop]
    simp only [ih]; rfl

theorem indexOfLoop_library (c : JChar) (es : List Atomic) (k : Int) :
    indexOfLoop libraryLeaves none c es k = Seq.indexOfLoop c es k := by
  induction es generalizing k with
  | nil => rfl
  | cons a es ih => rw [indexOfLoop, Seq.indexOfLoop]; simp only [ih]; rfl

theorem appendLeavesSB_library (es : List Atomic) (sb : JStr) :
    appendLeavesSB libraryLeaves none es sb = Seq.appendLeavesSB es sb := by
  induction es generalizing sb with
  | nil => rfl
  | cons a es ih => rw [appendLeavesSB, Seq.appendLeavesSB]; simp only [ih]; rfl

theorem leavesCalls_library (es : List Atomic) : leavesCalls libraryLeaves none es = Seq.leavesCalls es := by
  induction es with
  | nil => rfl
  | cons a es ih => rw [leavesCalls, Seq.leavesCalls]; simp only [ih]; rfl

theorem ofSeq_appendToSB {s : Seq} (h : s.Sane) (sb : JStr) :
    (ofSeq s).appendToSB libraryLeaves sb = s.appendToSB sb := by
  have h1 := ofSeq_leaves h
  have h2 := Seq.leaves_ok h
  have h3 := appendLeavesSB_library s.flat sb
  cases s with
  | atom a => rfl
  | concat l r n k =>
    simp only [Seq.appendToSB, h2, bind_ok]
    rw [← h3]
    change appendLeavesSB _ (ofSeq (.concat l r n k)).leaves.fault (ofSeq (.concat l r n k)).leaves.seen sb = _
    rw [h1]
  | array es n => exact h3

theorem ofSeq_appendToCalls {s : Seq} (h : s.Sane) :
    (ofSeq s).appendToCalls libraryLeaves = s.appendToCalls := by
  have h1 := ofSeq_leaves h
  have h2 := Seq.leaves_ok h
  have h3 := leavesCalls_library s.flat
  cases s with
  | atom a => rfl
  | concat l r n k =>
    simp only [Seq.appendToCalls, h2, bind_ok]
    rw [← h3]
    change leavesCalls _ (ofSeq (.concat l r n k)).leaves.fault (ofSeq (.concat l r n k)).leaves.seen = _
    rw [h1]
  | array es n => exact h3

theorem ofSeq_toStr {s : Seq} (h : s.Sane) : (ofSeq s).toStr libraryLeaves = s.toStr := by
  have h1 := ofSeq_appendToSB h []
  cases s with
  | atom a => rfl
  | concat l r n k => exact h1
  | array es n => exact h1

theorem ofSeq_charAt {s : Seq} (h : s.Sane) (i : Int) : (ofSeq s).charAt libraryLeaves i = s.charAt i := by
  have h1 := ofSeq_leaves h
  have h2 := Seq.leaves_ok h
  have h3 := charAtLoop_library s.flat i
  have h4 := ofSeq_length s
  cases s with
  | atom a => rfl
  | concat l r n k =>
    simp only [Seq.charAt, h2, bind_ok]
    rw [← h3, ← h4]
    change (do
      checkPositionIndex i _
      charAtLoop _ (ofSeq (.concat l r n k)).leaves.fault (ofSeq (.concat l r n k)).leaves.seen i) = _
    rw [h1]
  | array es n =>
    simp only [Seq.charAt, h2, bind_ok]
    rw [← h3]; rfl

theorem ofSeq_startsWith {s : Seq} (h : s.Sane) (c : JChar) :
    (ofSeq s).startsWith libraryLeaves c = s.startsWith c := by
  rw [startsWith, Seq.startsWith, ofSeq_length, ofSeq_charAt h]

theorem ofSeq_indexOf {s : Seq} (h : s.Sane) (c : JChar) : (ofSeq s).indexOf libraryLeaves c = s.indexOf c := by
  have h1 := ofSeq_leaves h
  have h2 := Seq.leaves_ok h
  have h3 := indexOfLoop_library c s.flat 0
  cases s with
  | atom a => rfl
  | concat l r n k =>
    simp only [Seq.indexOf, h2, bind_ok]
    rw [← h3]
    change indexOfLoop _ (ofSeq (.concat l r n k)).leaves.fault c (ofSeq (.concat l r n k)).leaves.seen 0 = _
    rw [h1]
  | array es n => exact h3

theorem ofSeq_upperCase {s : Seq} (h : s.Sane) :
    (ofSeq s).upperCase libraryLeaves = s.upperCase.map ofSeq := by
  have h1 := ofSeq_leaves h
  have h2 := Seq.leaves_ok h
  cases s with
  | atom a =>
    change (do return atom (← a.upperCase)) = _
    simp only [Seq.upperCase]
    cases a.upperCase <;> rfl
  | concat l r n k =>
    simp only [Seq.upperCase, h2, bind_ok]
    change (do
      let es ← (ofSeq (.concat l r n k)).leaves.seen.mapM Atomic.upperCase
      atEnd (ofSeq (.concat l r n k)).leaves.fault (.ok (array es n))) = _
    rw [h1]
    cases List.mapM Atomic.upperCase (Seq.concat l r n k).flat <;> rfl
  | array es n =>
    simp only [Seq.upperCase, h2, bind_ok]
    change (do
      let es ← es.mapM Atomic.upperCase
      atEnd none (.ok (array es n))) = _
    change _ = Except.map ofSeq (do return Seq.array (← es.mapM Atomic.upperCase) _)
    cases List.mapM Atomic.upperCase es <;> rfl

theorem subSequence_composite {α : Type} (ops : LeafOps α) {r : Rope α} (hat : ∀ a, r ≠ atom a) (i j : Int) :
    r.subSequence ops i j = (do
      checkPositionIndexes i j (r.length ops)
      if i = j then return atom ops.empty
      if i = 0 ∧ j = r.length ops then return r
      let (buffer, start, stop) ← subLoop ops r.leaves.fault r.leaves.seen i j []
      match buffer with
      | [] => (.error .assertion : Res (Rope α))
      | [a] => return atom a
      | buffer => return array buffer (stop - start)) := by
  cases r with
  | atom a => exact absurd rfl (hat a)
  | concat l r n k => rfl
  | array es n => rfl
  | other n k => rfl

theorem library_subSequence_composite {s : Seq} (hat : ∀ a, s ≠ .atom a) (i j : Int) :
    s.subSequence i j = (do
      checkPositionIndexes i j s.length
      if i = j then return Seq.empty
      if i = 0 ∧ j = s.length then return s
      let (buffer, start, stop) ← Seq.subLoop (← s.leaves) i j []
      match buffer with
      | [] => (.error .assertion : Res Seq)
      | [a] => return Seq.atom a
      | buffer => return Seq.array buffer (stop - start)) := by
  cases s with
  | atom a => exact absurd rfl (hat a)
  | concat l r n k => rfl
  | array es n => rfl

theorem ofSeq_subSequence {s : Seq} (h : s.Sane) (i j : Int) :
    (ofSeq s).subSequence libraryLeaves i j = (s.subSequence i j).map ofSeq := by
  have h1 := ofSeq_leaves h
  have h2 := Seq.leaves_ok h
  have h3 := subLoop_library s.flat i j []
  have h4 := ofSeq_length s
  by_cases hat : ∃ a, s = .atom a
  · obtain ⟨a, rfl⟩ := hat
    change (do return atom (← a.subSequence i j)) = _
    simp only [Seq.subSequence]
    cases a.subSequence i j <;> rfl
  rw [subSequence_composite _ (by
    intro a ha
    cases s with
    | atom b => exact hat ⟨b, rfl⟩
    | concat l r n k => cases ha
    | array es n => cases ha), library_subSequence_composite (fun a ha => hat ⟨a, ha⟩), h1, h2, h4]
  simp only [bind_ok, h3]
  cases checkPositionIndexes i j s.length with
  | error e => rfl
  | ok u =>
    simp only [bind_ok]
    by_cases hij : i = j
    · simp only [if_pos hij]; rfl
    · simp only [if_neg hij]
      by_cases hw : i = 0 ∧ j = s.length
      · simp only [if_pos hw]; rfl
      · simp only [if_neg hw]
        cases Seq.subLoop s.flat i j [] with
        | error e => rfl
        | ok p =>
          obtain ⟨buf, x, y⟩ := p
          simp only [bind_ok]
          match buf with
          | [] => rfl
          | [a] => rfl
          | a :: b :: buf => rfl

theorem ofSeq_spaceJustify (ctx : FormatContext) {v : Seq} :
    SeqFormatter.spaceJustify ctx v |>.map ofSeq |> (· = .ok (Rope.spaceJustify libraryLeaves ctx (ofSeq v))) := by
  simp only
  unfold SeqFormatter.spaceJustify Rope.spaceJustify
  rw [ofSeq_length]
  by_cases h : SeqFormatter.width ctx > v.length
  · simp only [if_pos h]
    have e : Seq.repeated 32 (SeqFormatter.width ctx - v.length) =
        .ok (.atom (.repeated 32 (SeqFormatter.width ctx - v.length).toNat)) := by
      unfold Seq.repeated Atomic.mkRepeated
      rw [if_pos (by omega)]
      by_cases h1 : SeqFormatter.width ctx - v.length = 1
      · rw [if_pos h1, h1]; rfl
      · rw [if_neg h1]; rfl
    rw [e, bind_ok]
    by_cases hf : ctx.hasFlag .leftJustify = true
    · simp only [if_pos hf]; exact congrArg Except.ok (ofSeq_append _ _)
    · simp only [if_neg hf]; exact congrArg Except.ok (ofSeq_prepend _ _)
  · simp only [if_neg h]; rfl

theorem ofSeq_formatS {ctx : FormatContext} {v : Traits} {s : Seq} (hv : v.asSeq = .ok s)
    (hw : s.Sane) :
    Rope.formatS libraryLeaves ctx (ofSeq s) = (SeqFormatter.s ctx v).map ofSeq := by
  unfold Rope.formatS SeqFormatter.s
  rw [hv, bind_ok, ofSeq_length]
  by_cases hc : (ctx.isPrecisionSet && decide (ctx.precision < s.length)) = true
  · rw [if_pos hc, if_pos hc, ofSeq_subSequence hw]
    cases s.subSequence 0 ctx.precision with
    | error e => rfl
    | ok t => exact (ofSeq_spaceJustify ctx (v := t)).symm
  · rw [if_neg hc, if_neg hc]; exact (ofSeq_spaceJustify ctx (v := s)).symm

end library
end FastPrintf.Own
