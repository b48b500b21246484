/-
Proofs about the deque of the rope iterator and the call stack of the compiler.
-/
import Verif.Model.Resources
import Verif.Spec.Resources
import Verif.Proofs.Seq
import Verif.Proofs.Compiler

namespace FastPrintf
open Spec

namespace Seq

/-- The deque needed to work off a given deque. -/
def stackNeed : List Seq → Nat
  | [] => 0
  | s :: st => max (st.length + 1) (max (st.length + waiting s) (stackNeed st))

theorem stackNeed_atoms (l : List Atomic) (st : List Seq) :
    stackNeed (l.map atom ++ st) =
      if l = [] then stackNeed st else max (st.length + l.length) (stackNeed st) := by
  induction l with
  | nil => rfl
  | cons a l ih =>
    simp only [List.map_cons, List.cons_append, stackNeed, ih, waiting, List.length_append,
      List.length_map, List.length_cons, reduceCtorEq, if_false]
    split
    · rename_i h; subst h; simp only [List.length_nil]; omega
    · omega

theorem length_le_stackNeed (st : List Seq) : st.length ≤ stackNeed st := by
  cases st with
  | nil => simp [stackNeed]
  | cons s st => simp only [stackNeed, List.length_cons]; omega

theorem unfoldLoop_peak {s : Seq} (h : s.Sane) (st st' : List Seq) (a : Atomic)
    (hu : unfoldLoop s st = .ok (a, st')) :
    max (unfoldPeak s st.length) (stackNeed st') = max (st.length + waiting s) (stackNeed st) := by
  induction s generalizing st with
  | atom b =>
    simp only [unfoldLoop, Except.ok.injEq, Prod.mk.injEq] at hu
    obtain ⟨rfl, rfl⟩ := hu
    simp [unfoldPeak, waiting]
  | concat l r n k ihl ihr =>
    have := ihl h.1 (r :: st) hu
    simp only [List.length_cons, stackNeed] at this
    simp only [unfoldPeak, waiting]
    omega
  | array es n =>
    match es, h.1 with
    | b :: rest, _ =>
      simp only [unfoldLoop, Except.ok.injEq, Prod.mk.injEq] at hu
      obtain ⟨rfl, rfl⟩ := hu
      simp only [unfoldPeak, waiting, List.length_cons, Nat.add_sub_cancel, stackNeed_atoms]
      split
      · rename_i h; subst h; rfl
      · omega

theorem iteratePeak_eq (fuel : Nat) (st : List Seq) (hs : ∀ x ∈ st, x.Sane)
    (hf : (st.map leafCount).sum ≤ fuel) : iteratePeak fuel st = stackNeed st := by
  induction fuel generalizing st with
  | zero =>
    match st with
    | [] => rfl
    | s :: st =>
      obtain ⟨a, st', _, _, h3, _⟩ := unfoldLoop_spec (hs s (by simp)) st
      simp only [List.map_cons, List.sum_cons] at hf
      omega
  | succ fuel ih =>
    match st with
    | [] => rfl
    | s :: st =>
      obtain ⟨a, st', h1, h2, h3, h4⟩ := unfoldLoop_spec (hs s (by simp)) st
      simp only [List.map_cons, List.sum_cons] at hf
      unfold iteratePeak
      rw [h1]
      simp only
      rw [ih st' (h4 fun x hx => hs x (List.mem_cons_of_mem _ hx)) (by omega)]
      have := unfoldLoop_peak (hs s (by simp)) st st' a h1
      rw [stackNeed]; omega

theorem dequePeak_eq {s : Seq} (h : s.Sane) (hc : ∃ l r n k, s = concat l r n k) :
    s.dequePeak = waiting s := by
  obtain ⟨l, r, n, k, rfl⟩ := hc
  have := iteratePeak_eq (leafCount (concat l r n k)) [concat l r n k]
    (by intro x hx; rw [List.mem_singleton] at hx; subst hx; exact h) (by simp)
  simp only [dequePeak, this, stackNeed, List.length_nil, waiting]
  omega

theorem waiting_lt {s : Seq} (h : s.Sane) : waiting s < s.leafCount := by
  induction s with
  | atom a => simp [waiting, leafCount]
  | concat l r n k ihl ihr =>
    have := ihl h.1; have := ihr h.2.1
    simp only [waiting, leafCount]; omega
  | array es n =>
    have : es.length ≠ 0 := fun h0 => h.1 (List.length_eq_zero_iff.1 h0)
    simp only [waiting, leafCount]; omega

theorem waiting_mkConcat (l r : Seq) : waiting (mkConcat l r) ≤ max (waiting l + 1) (waiting r) ∧
    waiting r ≤ waiting (mkConcat l r) := by
  cases l <;> simp only [mkConcat, concat0, waiting] <;> omega

/-! The stored number of leaves -/

/-- The stored leaf counts are right. -/
def Counted : Seq → Prop
  | .atom _ => True
  | .concat l r _ k => l.Counted ∧ r.Counted ∧ k = l.elementCount + r.elementCount
  | .array _ _ => True

theorem Counted.eq {s : Seq} (h : s.Counted) : s.elementCount = s.flat.length := by
  induction s with
  | atom a => rfl
  | concat l r n k ihl ihr =>
    show k = _
    rw [h.2.2, ihl h.1, ihr h.2.1]; simp [flat]
  | array es n => rfl

theorem mkConcat_counted {l r : Seq} (hl : l.Counted) (hr : r.Counted) :
    (mkConcat l r).Counted := by
  cases l with
  | atom a => exact ⟨hl, hr, rfl⟩
  | concat ll lr n k => exact ⟨hl.1, ⟨hl.2.1, hr, rfl⟩, rfl⟩
  | array es n => exact ⟨hl, hr, rfl⟩

theorem append_counted {l r : Seq} (hl : l.Counted) (hr : r.Counted) : (append l r).Counted := by
  unfold append
  split
  · exact hr
  · split
    · exact hl
    · exact mkConcat_counted hl hr

theorem prepend_counted {l r : Seq} (hl : l.Counted) (hr : r.Counted) : (prepend l r).Counted := by
  unfold prepend
  split
  · exact hr
  · split
    · exact hl
    · exact mkConcat_counted hr hl

theorem join_counted (l : List Atomic) : (join l).Counted := by
  unfold join; split <;> trivial

theorem upperCase_counted {s t : Seq} (h : s.upperCase = .ok t) : t.Counted := by
  cases s with
  | atom a =>
    simp only [upperCase, bind_eq_ok, pure_eq_ok, Except.ok.injEq] at h
    obtain ⟨b, _, rfl⟩ := h; trivial
  | concat l r n k =>
    simp only [upperCase, bind_eq_ok, pure_eq_ok, Except.ok.injEq] at h
    obtain ⟨_, _, _, _, rfl⟩ := h; trivial
  | array es n =>
    simp only [upperCase, bind_eq_ok, pure_eq_ok, Except.ok.injEq] at h
    obtain ⟨_, _, _, _, rfl⟩ := h; trivial

theorem leafCount_flat (s : Seq) : s.leafCount = s.flat.length := by
  induction s with
  | atom a => rfl
  | concat l r n k ihl ihr => simp only [leafCount, flat, List.length_append, ihl, ihr]
  | array es n => rfl

theorem dequePeak_lt {s : Seq} (h : s.Sane) : s.dequePeak < s.flat.length := by
  rw [← leafCount_flat]
  cases s with
  | atom a => simp [dequePeak, leafCount]
  | concat l r n k => rw [dequePeak_eq h ⟨l, r, n, k, rfl⟩]; exact waiting_lt h
  | array es n =>
    have : es.length ≠ 0 := fun h0 => h.1 (List.length_eq_zero_iff.1 h0)
    simp only [dequePeak, leafCount]; omega

/-! Chains of appends and prepends -/

theorem ne_empty {a : Atomic} (h : a.length ≠ 0) : a ≠ .empty := by
  rintro rfl; exact h rfl

theorem isEmpty_atom {a : Atomic} (h : a.length ≠ 0) : (atom a).isEmpty = false := by
  simp [isEmpty, length, h]

theorem append_concat_atom (l r : Seq) (n k : Int) {a : Atomic} (h : a.length ≠ 0) :
    append (concat l r n k) (atom a) = concat0 l (concat0 r (atom a)) := by
  simp [append, isEmpty_atom h, mkConcat]

theorem append_atom_atom {a b : Atomic} (ha : a.length ≠ 0) (h : b.length ≠ 0) :
    append (atom a) (atom b) = concat0 (atom a) (atom b) := by
  have := ne_empty ha
  cases a <;> first | exact absurd rfl this | simp [append, isEmpty_atom h, mkConcat]

theorem prepend_atom {s : Seq} {a : Atomic} (hs : s ≠ atom .empty) (h : a.length ≠ 0) :
    prepend s (atom a) = concat0 (atom a) s := by
  unfold prepend
  split
  · exact absurd rfl hs
  · rw [isEmpty_atom h]; simp [mkConcat]

/-- What a chain of appends builds: the first leaf, and then a chain leaning to the left. -/
theorem appendAll_shape {a b : Atomic} (ha : a.length ≠ 0) (hb : b.length ≠ 0) (as : List Atomic)
    (h : ∀ x ∈ as, x.length ≠ 0) :
    ∃ n k, appendAll (atom a) ((b :: as).map atom) =
      concat (atom a) (plainAppendAll (atom b) (as.map atom)) n k := by
  have main : ∀ (as : List Atomic) (s : Seq) (n k : Int), (∀ x ∈ as, x.length ≠ 0) →
      ∃ n' k', appendAll (concat (atom a) s n k) (as.map atom) =
        concat (atom a) (plainAppendAll s (as.map atom)) n' k' := by
    intro as
    induction as with
    | nil => intro s n k _; exact ⟨n, k, rfl⟩
    | cons x as ih =>
      intro s n k h
      have := ih (concat0 s (atom x)) ((atom a).length + (concat0 s (atom x)).length)
        ((atom a).elementCount + (concat0 s (atom x)).elementCount)
        (fun y hy => h y (List.mem_cons_of_mem _ hy))
      simp only [appendAll, plainAppendAll, List.map_cons, List.foldl_cons] at this ⊢
      rw [append_concat_atom _ _ _ _ (h x (by simp))]
      exact this
  have := main as (atom b) ((atom a).length + (atom b).length)
    ((atom a).elementCount + (atom b).elementCount) h
  simp only [appendAll, List.map_cons, List.foldl_cons] at this ⊢
  rw [append_atom_atom ha hb]
  exact this

theorem plain_waiting (s : Seq) (as : List Atomic) :
    waiting (plainAppendAll s (as.map atom)) = waiting s + as.length ∧
    height (plainAppendAll s (as.map atom)) = height s + as.length := by
  induction as generalizing s with
  | nil => exact ⟨rfl, rfl⟩
  | cons a as ih =>
    have := ih (concat0 s (atom a))
    simp only [plainAppendAll, List.map_cons, List.foldl_cons, List.length_cons] at this ⊢
    rw [this.1, this.2]
    simp only [concat0, waiting, height]
    constructor <;> omega

theorem prependAll_waiting {s : Seq} (hs : s ≠ atom .empty) (as : List Atomic)
    (h : ∀ x ∈ as, x.length ≠ 0) (hne : as ≠ []) :
    waiting (prependAll s (as.map atom)) = max 1 (waiting s) ∧
    height (prependAll s (as.map atom)) = height s + as.length ∧
    ∃ l r n k, prependAll s (as.map atom) = concat l r n k := by
  induction as generalizing s with
  | nil => exact absurd rfl hne
  | cons a as ih =>
    have h1 := prepend_atom hs (h a (by simp))
    simp only [prependAll, List.map_cons, List.foldl_cons, h1]
    by_cases hn : as = []
    · subst hn
      refine ⟨?_, ?_, _, _, _, _, rfl⟩
      · simp [concat0, waiting]
      · simp [concat0, height]
    · obtain ⟨k1, k2, k3⟩ := ih (s := concat0 (atom a) s) (by simp [concat0])
        (fun y hy => h y (List.mem_cons_of_mem _ hy)) hn
      simp only [prependAll] at k1 k2 k3
      refine ⟨?_, ?_, k3⟩
      · rw [k1]; simp only [concat0, waiting]; omega
      · rw [k2]; simp only [concat0, height, List.length_cons]; omega

theorem appendAll_sane {s : Seq} (hs : s.WF) (as : List Atomic) (h : ∀ x ∈ as, x.WF) :
    (appendAll s (as.map atom)).WF := by
  induction as generalizing s with
  | nil => exact hs
  | cons a as ih =>
    exact ih (append_wf hs (h a (by simp))) (fun y hy => h y (List.mem_cons_of_mem _ hy))

theorem prependAll_sane {s : Seq} (hs : s.WF) (as : List Atomic) (h : ∀ x ∈ as, x.WF) :
    (prependAll s (as.map atom)).WF := by
  induction as generalizing s with
  | nil => exact hs
  | cons a as ih =>
    exact ih (prepend_wf hs (h a (by simp))) (fun y hy => h y (List.mem_cons_of_mem _ hy))

end Seq

/-! ### The compiler -/

theorem frames_reading (env : DateSyntax) (fuel : Nat) (rest : JStr) (pos : Nat) (ps : List Piece)
    (hf : rest.length < fuel) (h : Reading env rest ps) :
    Compiler.frames env fuel rest pos = (ps.map Piece.calls).sum + 1 := by
  induction fuel generalizing rest pos ps with
  | zero => omega
  | succ fuel ih =>
    have step : ∀ (p : Piece) (ps : List Piece) (r : JStr) (pos : Nat), (∀ s, p ≠ .lit s) →
        r.length ≤ fuel → Reading env (37 :: r) (p :: ps) →
        (match Compiler.forPattern env r pos with
          | .ok (_, rest1, pos1) => Compiler.frames env fuel rest1 pos1
          | .error _ => 0) = (ps.map Piece.calls).sum + 1 := by
      intro p ps r pos hp hl hr
      obtain ⟨t, k1, k2, k3, k4⟩ := (reading_cons hp).1 hr
      have hlen := congrArg List.length k1
      have h2 := text_length hp
      simp only [List.length_cons, List.length_append] at hlen
      have : Compiler.forPattern env r pos = .ok (p.compiled, t, pos + p.text.length - 1) := by
        rw [forPattern_iff]
        exact ⟨p, hp, k1, k2, k3, rfl, by omega⟩
      rw [this]
      exact ih t _ ps (by omega) k4
    have calls : ∀ p : Piece, (∀ s, p ≠ .lit s) → p.calls = 2 := by
      intro p hp; cases p with
      | lit s => exact absurd rfl (hp s)
      | percent => rfl
      | dir d => rfl
    unfold Compiler.frames
    cases rest with
    | nil => rw [reading_of_nil.1 h]; rfl
    | cons c rest =>
      simp only [List.length_cons] at hf
      cases ps with
      | nil => have := h.text; simp at this
      | cons p ps =>
        simp only
        by_cases hc : c = 37
        · subst hc
          rw [if_pos rfl]
          have hp : ∀ s, p ≠ .lit s := by
            rintro s rfl
            obtain ⟨r, k1, k2, k3, _⟩ := reading_lit.1 h
            cases s with
            | nil => exact k2 rfl
            | cons d s =>
              simp only [List.cons_append, List.cons.injEq] at k1
              exact k3 (by simp [k1.1])
          refine (congrArg (2 + ·) (step p ps rest (pos + 1) hp (by omega) h)).trans ?_
          simp only [List.map_cons, List.sum_cons, calls p hp]; omega
        · rw [if_neg hc]
          cases p with
          | percent =>
            have := h.text
            simp [Piece.text] at this
            exact absurd this.1.symm hc
          | dir d =>
            have := h.text
            simp [Piece.text, Directive.text] at this
            exact absurd this.1.symm hc
          | lit l =>
            obtain ⟨r, k1, k2, k3, k4, k5⟩ := reading_lit.1 h
            have hrun := literalRun_append l r k3 k4
            rw [k1, hrun]
            have hlen := congrArg List.length k1
            simp only [List.length_cons, List.length_append] at hlen
            cases r with
            | nil => rw [reading_of_nil.1 k5]; rfl
            | cons x r =>
              have hx : x = 37 := k4 x rfl
              subst hx
              simp only [List.length_cons] at hlen
              cases ps with
              | nil => have := k5.text; simp at this
              | cons p ps =>
                have hp : ∀ s, p ≠ .lit s := fun s hs => h.separated.1 s (by simp [hs])
                simp only
                refine (congrArg (3 + ·) (step p ps r _ hp (by omega) k5)).trans ?_
                simp only [List.map_cons, List.sum_cons, Piece.calls]; omega

theorem frames_le (env : DateSyntax) (fuel : Nat) (rest : JStr) (pos : Nat) :
    Compiler.frames env fuel rest pos ≤ rest.length + 1 := by
  induction fuel generalizing rest pos with
  | zero => simp [Compiler.frames]
  | succ fuel ih =>
    have step : ∀ (r : JStr) (pos : Nat),
        (match Compiler.forPattern env r pos with
          | .ok (_, rest1, pos1) => Compiler.frames env fuel rest1 pos1
          | .error _ => 0) ≤ r.length := by
      intro r pos
      split
      · rename_i a r1 p1 h1
        obtain ⟨p, g1, g2, _⟩ := (forPattern_iff _ _ _ _ _ _).1 h1
        have := congrArg List.length g2
        have := text_length g1
        have := ih r1 p1
        simp only [List.length_cons, List.length_append] at *
        omega
      · omega
    unfold Compiler.frames
    cases rest with
    | nil => simp
    | cons c rest =>
      simp only
      by_cases hc : c = 37
      · subst hc
        rw [if_pos rfl]
        refine (Nat.add_le_add_left (step rest (pos + 1)) 2).trans ?_
        simp only [List.length_cons]; omega
      · rw [if_neg hc]
        obtain ⟨t1, t2, t3⟩ := literalRun_spec (c :: rest)
        have hne : (Compiler.literalRun (c :: rest)).1 ≠ [] := by
          unfold Compiler.literalRun; simp [hc]
        generalize Compiler.literalRun (c :: rest) = lr at *
        obtain ⟨lit, r⟩ := lr
        simp only at t1 hne ⊢
        have hlen := congrArg List.length t1
        have hpos : lit.length ≠ 0 := fun h0 => hne (List.length_eq_zero_iff.1 h0)
        cases r with
        | nil => simp only [List.length_cons]; omega
        | cons x r1 =>
          simp only [List.length_append, List.length_cons] at hlen ⊢
          refine (Nat.add_le_add_left (step r1 (pos + lit.length + 1)) 3).trans ?_
          omega

end FastPrintf
