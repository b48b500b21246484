/-
Ropes over leaves of any class: the lemmas.
-/
import Verif.Spec.OwnSeq
import Verif.Proofs.Seq
import Verif.Proofs.Cut

namespace FastPrintf.Own

variable {α : Type}

namespace Walk

@[simp] theorem andThen_nil (w : Walk α) : Walk.andThen ⟨[], none⟩ w = w := rfl

@[simp] theorem andThen_end (w : Walk α) : w.andThen ⟨[], none⟩ = w := by
  rcases w with ⟨s, _ | e⟩ <;> simp [Walk.andThen]

theorem andThen_assoc (x y z : Walk α) : (x.andThen y).andThen z = x.andThen (y.andThen z) := by
  rcases x with ⟨s, _ | e⟩ <;> rcases y with ⟨s', _ | e'⟩ <;> simp [Walk.andThen]

end Walk

namespace Rope

/-- No joined sequence in it is empty. -/
def Full : Rope α → Prop
  | .atom _ => True
  | .concat l r _ _ => l.Full ∧ r.Full
  | .array es _ => es ≠ []
  | .other _ _ => True

/-- The walk over a stack of ropes. -/
def allUpTo : List (Rope α) → Walk α
  | [] => ⟨[], none⟩
  | r :: rs => r.upToOther.andThen (allUpTo rs)

theorem allUpTo_atoms (l : List α) (st : List (Rope α)) :
    allUpTo (l.map atom ++ st) = Walk.andThen ⟨l, none⟩ (allUpTo st) := by
  induction l with
  | nil => rfl
  | cons a l ih => rw [List.map_cons, List.cons_append, allUpTo, ih, upToOther, ← Walk.andThen_assoc]; rfl

theorem sum_leafCount_atoms (l : List α) : ((l.map atom).map leafCount).sum = l.length := by
  induction l with
  | nil => rfl
  | cons a l ih => simp only [List.map_cons, List.sum_cons, ih, List.length_cons, leafCount]; omega

theorem unfoldLoop_spec (r : Rope α) (hr : r.Full) (st : List (Rope α)) (hst : ∀ x ∈ st, x.Full) :
    (unfoldLoop r st = .error .classCast ∧ allUpTo (r :: st) = ⟨[], some .classCast⟩) ∨
    ∃ a st', unfoldLoop r st = .ok (a, st') ∧ allUpTo (r :: st) = Walk.andThen ⟨[a], none⟩ (allUpTo st') ∧
      (∀ x ∈ st', x.Full) ∧ (st'.map leafCount).sum + 1 = r.leafCount + (st.map leafCount).sum := by
  induction r generalizing st with
  | atom a => exact .inr ⟨a, st, rfl, rfl, hst, by simp only [leafCount]; omega⟩
  | concat l r n k ihl ihr =>
    have e : allUpTo (concat l r n k :: st) = allUpTo (l :: r :: st) := Walk.andThen_assoc _ _ _
    rw [e]
    rcases ihl hr.1 (r :: st) (by
      intro x hx
      rcases List.mem_cons.1 hx with rfl | hx
      · exact hr.2
      · exact hst x hx) with h | ⟨a, st', h1, h2, h3, h4⟩
    · exact .inl h
    · refine .inr ⟨a, st', h1, h2, h3, ?_⟩
      simp only [List.map_cons, List.sum_cons] at h4
      simp only [leafCount]; omega
  | array es n =>
    match es, hr with
    | a :: rest, _ =>
      refine .inr ⟨a, rest.map atom ++ st, rfl, ?_, ?_, ?_⟩
      · rw [allUpTo_atoms, ← Walk.andThen_assoc]; rfl
      · intro x hx
        rcases List.mem_append.1 hx with hx | hx
        · obtain ⟨b, _, rfl⟩ := List.mem_map.1 hx; trivial
        · exact hst x hx
      · rw [List.map_append, List.sum_append, sum_leafCount_atoms]
        simp only [leafCount, List.length_cons]; omega
  | other n k => exact .inl ⟨rfl, rfl⟩

theorem iterate_eq (fuel : Nat) (st : List (Rope α)) (hst : ∀ x ∈ st, x.Full)
    (hf : (st.map leafCount).sum ≤ fuel) : iterate fuel st = allUpTo st := by
  induction fuel generalizing st with
  | zero =>
    match st with
    | [] => rfl
    | r :: st =>
      rcases unfoldLoop_spec r (hst r (by simp)) st (fun x hx => hst x (List.mem_cons_of_mem _ hx)) with
        ⟨h1, h2⟩ | ⟨a, st', h1, h2, h3, h4⟩
      · exfalso
        have : ∀ r : Rope α, r.Full → 0 < r.leafCount := by
          intro r
          induction r with
          | atom a => intro _; exact Nat.one_pos
          | concat l r n k ihl _ => intro h; have := ihl h.1; simp only [leafCount]; omega
          | array es n => intro h; exact List.length_pos_iff.2 h
          | other n k => intro _; exact Nat.one_pos
        have := this r (hst r (by simp))
        simp only [List.map_cons, List.sum_cons] at hf; omega
      · simp only [List.map_cons, List.sum_cons] at hf; omega
  | succ fuel ih =>
    match st with
    | [] => rfl
    | r :: st =>
      rw [iterate]
      rcases unfoldLoop_spec r (hst r (by simp)) st (fun x hx => hst x (List.mem_cons_of_mem _ hx)) with
        ⟨h1, h2⟩ | ⟨a, st', h1, h2, h3, h4⟩
      · rw [h1, h2]
      · simp only [List.map_cons, List.sum_cons] at hf
        rw [h1, h2]
        simp only
        rw [ih st' h3 (by omega)]
        rfl

theorem leaves_eq (r : Rope α) (hr : r.Full) : r.leaves = r.upToOther := by
  cases r with
  | atom a => rfl
  | concat l r n k =>
    rw [leaves, iterate_eq _ _ (by intro x hx; rw [List.mem_singleton] at hx; subst hx; exact hr) (by simp)]
    exact Walk.andThen_end _
  | array es n => rfl
  | other n k => rfl

/-- Leaves only, all of them good. -/
def Sane (Good : α → Prop) : Rope α → Prop
  | .atom a => Good a
  | .concat l r _ _ => l.Sane Good ∧ r.Sane Good
  | .array es _ => es ≠ [] ∧ ∀ a ∈ es, Good a
  | .other _ _ => False

/-- The leaves. -/
def flat : Rope α → List α
  | .atom a => [a]
  | .concat l r _ _ => l.flat ++ r.flat
  | .array es _ => es
  | .other _ _ => []

/-- The text. -/
def text (text : α → JStr) (r : Rope α) : JStr := r.flat.flatMap text

/-- The stored lengths are right as well. -/
def WF (ops : LeafOps α) (Good : α → Prop) (txt : α → JStr) : Rope α → Prop
  | .atom a => Good a
  | .concat l r n _ => l.WF ops Good txt ∧ r.WF ops Good txt ∧ n = l.length ops + r.length ops
  | .array es n => es ≠ [] ∧ (∀ a ∈ es, Good a) ∧ n = (es.flatMap txt).length
  | .other _ _ => False

variable {ops : LeafOps α} {Good : α → Prop} {txt : α → JStr}

theorem WF.sane {r : Rope α} (h : r.WF ops Good txt) : r.Sane Good := by
  induction r with
  | atom a => exact h
  | concat l r n k ihl ihr => exact ⟨ihl h.1, ihr h.2.1⟩
  | array es n => exact ⟨h.1, h.2.1⟩
  | other n k => exact h

theorem Sane.full {r : Rope α} (h : r.Sane Good) : r.Full := by
  induction r with
  | atom a => trivial
  | concat l r n k ihl ihr => exact ⟨ihl h.1, ihr h.2⟩
  | array es n => exact h.1
  | other n k => trivial

theorem Sane.upTo {r : Rope α} (h : r.Sane Good) : r.upToOther = ⟨r.flat, none⟩ := by
  induction r with
  | atom a => rfl
  | concat l r n k ihl ihr => rw [upToOther, ihl h.1, ihr h.2]; rfl
  | array es n => rfl
  | other n k => exact h.elim

theorem Sane.leaves {r : Rope α} (h : r.Sane Good) : r.leaves = ⟨r.flat, none⟩ := by
  rw [leaves_eq r h.full, h.upTo]

theorem Sane.flat_good {r : Rope α} (h : r.Sane Good) : ∀ a ∈ r.flat, Good a := by
  induction r with
  | atom a => intro b hb; rw [flat, List.mem_singleton] at hb; subst hb; exact h
  | concat l r n k ihl ihr =>
    intro b hb
    rcases List.mem_append.1 hb with hb | hb
    · exact ihl h.1 b hb
    · exact ihr h.2 b hb
  | array es n => exact h.2
  | other n k => exact h.elim

theorem text_concat (l r : Rope α) (n k : Int) : (concat l r n k).text txt = l.text txt ++ r.text txt := by
  simp [text, flat]

variable (F : Faithful ops Good txt)
include F

theorem WF.length_text {r : Rope α} (h : r.WF ops Good txt) : r.length ops = (r.text txt).length := by
  induction r with
  | atom a => rw [length, F.length a h]; simp [text, flat]
  | concat l r n k ihl ihr =>
    rw [length, h.2.2, ihl h.1, ihr h.2.1, text_concat, List.length_append]; omega
  | array es n => exact h.2.2
  | other n k => exact h.elim

theorem WF.isEmpty {r : Rope α} (h : r.WF ops Good txt) : r.isEmpty ops = true ↔ r.text txt = [] := by
  have hl := h.length_text F
  cases r with
  | atom a => rw [Rope.isEmpty, F.isEmpty a h]; simp [text, flat]
  | concat l r n k =>
    change (Rope.length ops _ == 0) = true ↔ _
    rw [hl]; simp
  | array es n =>
    change (Rope.length ops _ == 0) = true ↔ _
    rw [hl]; simp
  | other n k => exact h.elim

theorem sum_lengths (es : List α) (h : ∀ a ∈ es, Good a) : (es.map ops.length).sum = (es.flatMap txt).length := by
  induction es with
  | nil => rfl
  | cons a es ih =>
    rw [List.map_cons, List.sum_cons, ih (fun b hb => h b (List.mem_cons_of_mem _ hb)), F.length a (h a (by simp)),
      List.flatMap_cons, List.length_append]; omega

theorem charAtLoop_ok (f : Option Err) (es : List α) (h : ∀ a ∈ es, Good a) (i : Nat) (c : JChar)
    (hi : (es.flatMap txt)[i]? = some c) : charAtLoop ops f es i = .ok c := by
  induction es generalizing i with
  | nil => simp at hi
  | cons a es ih =>
    have ha := h a (by simp)
    have hl := F.length a ha
    rw [charAtLoop]
    rw [List.flatMap_cons, List.getElem?_append] at hi
    by_cases h1 : i < (txt a).length
    · rw [if_pos h1] at hi
      rw [if_pos (by omega)]; exact F.charAt a ha i c hi
    · rw [if_neg h1] at hi
      rw [if_neg (by omega), show (i : Int) - ops.length a = ((i - (txt a).length : Nat) : Int) by omega]
      exact ih (fun b hb => h b (List.mem_cons_of_mem _ hb)) _ hi

theorem charAtLoop_past (f : Option Err) (es : List α) (h : ∀ a ∈ es, Good a) (i : Nat)
    (hi : (es.flatMap txt).length ≤ i) : charAtLoop ops f es i = atEnd f (.error .assertion) := by
  induction es generalizing i with
  | nil => rfl
  | cons a es ih =>
    have ha := h a (by simp)
    have hl := F.length a ha
    rw [List.flatMap_cons, List.length_append] at hi
    rw [charAtLoop, if_neg (by omega), show (i : Int) - ops.length a = ((i - (txt a).length : Nat) : Int) by omega]
    exact ih (fun b hb => h b (List.mem_cons_of_mem _ hb)) _ (by omega)

theorem indexOfLoop_eq (f : Option Err) (es : List α) (h : ∀ a ∈ es, Good a) (c : JChar) (k : Int) :
    indexOfLoop ops f c es k = if Spec.firstIndex (es.flatMap txt) c = -1 then atEnd f (.ok (-1))
      else .ok (Spec.firstIndex (es.flatMap txt) c + k) := by
  induction es generalizing k with
  | nil => simp [indexOfLoop, Spec.firstIndex]
  | cons a es ih =>
    have ha := h a (by simp)
    have hl := F.length a ha
    rw [indexOfLoop, F.indexOf a ha, bind_ok, List.flatMap_cons, Atomic.firstIndex_append]
    by_cases h1 : Spec.firstIndex (txt a) c = -1
    · rw [if_neg (by simpa using h1), ih (fun b hb => h b (List.mem_cons_of_mem _ hb)),
        if_neg (show ¬ Spec.firstIndex (txt a) c ≠ -1 by simpa using h1)]
      have := Atomic.firstIndex_ge (es.flatMap txt) c
      by_cases h2 : Spec.firstIndex (es.flatMap txt) c = -1
      · simp [h2]
      · rw [if_neg h2, if_pos h2, if_neg (by omega)]
        congr 1; omega
    · rw [if_pos h1]
      simp [h1]

theorem appendLeavesSB_eq (f : Option Err) (es : List α) (h : ∀ a ∈ es, Good a) (sb : JStr) :
    appendLeavesSB ops f es sb = atEnd f (.ok (sb ++ es.flatMap txt)) := by
  induction es generalizing sb with
  | nil => simp [appendLeavesSB]
  | cons a es ih =>
    rw [appendLeavesSB, F.toBuilder a (h a (by simp)), bind_ok, ih (fun b hb => h b (List.mem_cons_of_mem _ hb))]
    simp

theorem leavesCalls_none (es : List α) (h : ∀ a ∈ es, Good a) :
    ∃ calls, leavesCalls ops none es = .ok calls ∧ calls.flatten = es.flatMap txt := by
  induction es with
  | nil => exact ⟨[], rfl, rfl⟩
  | cons a es ih =>
    obtain ⟨c1, h1, h2⟩ := F.toAppendable a (h a (by simp))
    obtain ⟨c2, h3, h4⟩ := ih (fun b hb => h b (List.mem_cons_of_mem _ hb))
    refine ⟨c1 ++ c2, ?_, by simp [h2, h4]⟩
    rw [leavesCalls, h1, bind_ok, h3]; rfl

theorem leavesCalls_some (e : Err) (es : List α) (h : ∀ a ∈ es, Good a) :
    leavesCalls ops (some e) es = .error e := by
  induction es with
  | nil => rfl
  | cons a es ih =>
    obtain ⟨c1, h1, h2⟩ := F.toAppendable a (h a (by simp))
    rw [leavesCalls, h1, bind_ok, ih (fun b hb => h b (List.mem_cons_of_mem _ hb))]; rfl

theorem mapM_upper (es : List α) (h : ∀ a ∈ es, Good a) :
    ∃ bs, es.mapM ops.upperCase = .ok bs ∧ (∀ b ∈ bs, Good b) ∧ bs.map txt = es.map (fun a => (txt a).map Spec.upper) := by
  induction es with
  | nil => exact ⟨[], rfl, by simp, rfl⟩
  | cons a es ih =>
    obtain ⟨b, h1, h2, h3⟩ := F.upper a (h a (by simp))
    obtain ⟨bs, h4, h5, h6⟩ := ih (fun b hb => h b (List.mem_cons_of_mem _ hb))
    refine ⟨b :: bs, ?_, ?_, by simp [h3, h6]⟩
    · rw [List.mapM_cons, h1, bind_ok, h4]; rfl
    · intro x hx
      rcases List.mem_cons.1 hx with rfl | hx
      · exact h2
      · exact h5 x hx

theorem Sane.appendToSB {r : Rope α} (h : r.Sane Good) (sb : JStr) :
    r.appendToSB ops sb = .ok (sb ++ r.text txt) := by
  have hl := h.leaves
  have hg := h.flat_good
  cases r with
  | atom a => rw [Rope.appendToSB, F.toBuilder a h]; simp [text, flat]
  | concat l r n k => rw [Rope.appendToSB, hl, appendLeavesSB_eq F _ _ hg]; rfl; simp
  | array es n => rw [Rope.appendToSB, hl, appendLeavesSB_eq F _ _ hg]; rfl; simp
  | other n k => exact h.elim

/-- What `upperCase` of a rope is. -/
theorem upperCase_pieces {r : Rope α} (h : r.Sane Good) :
    ∃ u, r.upperCase ops = .ok u ∧ u.Sane Good ∧ u.flat.map txt = r.flat.map (fun a => (txt a).map Spec.upper) ∧
      (r.WF ops Good txt → u.WF ops Good txt) := by
  have hl := h.leaves
  have hg := h.flat_good
  have hne : r.flat ≠ [] := by
    clear hl hg
    induction r with
    | atom a => simp [flat]
    | concat l r n k ihl ihr => simp [flat, ihl h.1]
    | array es n => exact h.1
    | other n k => exact h.elim
  obtain ⟨bs, b1, b2, b3⟩ := mapM_upper F r.flat hg
  have hbne : bs ≠ [] := by
    intro h0; rw [h0] at b3; simp at b3; exact hne b3
  have hlen : (bs.flatMap txt).length = (r.text txt).length := by
    rw [text, List.flatMap_def, List.flatMap_def, b3]
    simp [List.length_flatten, Function.comp_def]
  cases r with
  | atom a =>
    obtain ⟨b, h1, h2, h3⟩ := F.upper a h
    exact ⟨atom b, by rw [upperCase, h1]; rfl, h2, by simp [flat, h3], fun _ => h2⟩
  | concat l r n k =>
    refine ⟨array bs n, ?_, ⟨hbne, b2⟩, b3, fun hw => ⟨hbne, b2, ?_⟩⟩
    · rw [upperCase, hl, b1]; rfl
      simp
    · rw [hlen]; exact hw.length_text F
  | array es n =>
    refine ⟨array bs n, ?_, ⟨hbne, b2⟩, b3, fun hw => ⟨hbne, b2, ?_⟩⟩
    · rw [upperCase, hl, b1]; rfl
      simp
    · rw [hlen]; exact hw.length_text F
  | other n k => exact h.elim

theorem subLoop_spec (f : Option Err) (es : List α) (h : ∀ a ∈ es, Good a) (i j : Nat) (buf : List α)
    (hij : i < j) (hj : j ≤ (es.flatMap txt).length) :
    ∃ (ps : List α) (p : α) (s' e' : Int), subLoop ops f es i j buf = .ok (buf ++ ps ++ [p], s', e') ∧
      (∀ a ∈ ps, Good a) ∧ Good p ∧
      ps.flatMap txt ++ txt p = Spec.sub (es.flatMap txt) i j ∧
      e' - s' = (txt p).length ∧ (txt p).length = sliceLength (es.map txt) i j := by
  induction es generalizing i j buf with
  | nil => simp at hj; omega
  | cons a es ih =>
    have ha := h a (by simp)
    have hes : ∀ b ∈ es, Good b := fun b hb => h b (List.mem_cons_of_mem _ hb)
    have hl := F.length a ha
    simp only [List.flatMap_cons, List.length_append] at hj
    rw [List.flatMap_cons, List.map_cons, sliceLength, subLoop, Seq.sub_append _ _ _ _ (by omega)]
    by_cases h1 : i < (txt a).length
    · rw [if_pos (by omega), if_pos h1]
      by_cases h2 : j ≤ (txt a).length
      · rw [if_pos (by omega), if_pos h2]
        obtain ⟨b, hb1, hb2, hb3⟩ := F.sub a ha i j (by omega) h2
        have hlen : (txt b).length = j - i := by rw [hb3, Spec.sub]; simp; omega
        refine ⟨[], b, i, j, ?_, by simp, hb2, ?_, by omega, hlen⟩
        · rw [hb1]; simp
        · rw [hb3, show min j (txt a).length = j by omega, show j - (txt a).length = 0 by omega]
          simp [Spec.sub]
      · rw [if_neg (by omega), if_neg h2, hl]
        obtain ⟨b, hb1, hb2, hb3⟩ := F.sub a ha i (txt a).length (by omega) le_rfl
        obtain ⟨ps, p, s', e', g1, g2, g3, g4, g5, g6⟩ :=
          ih hes 0 (j - (txt a).length) (buf ++ [b]) (by omega) (by omega)
        refine ⟨b :: ps, p, s', e', ?_, ?_, g3, ?_, g5, g6⟩
        · rw [hb1, bind_ok, show (j : Int) - (txt a).length = ((j - (txt a).length : Nat) : Int) by omega,
            show (0 : Int) = ((0 : Nat) : Int) from rfl, g1]; simp
        · intro x hx
          rcases List.mem_cons.1 hx with rfl | hx
          · exact hb2
          · exact g2 x hx
        · rw [List.flatMap_cons, List.append_assoc, g4, hb3, show min j (txt a).length = (txt a).length by omega,
            show i - (txt a).length = 0 by omega]
    · rw [if_neg (by omega), if_neg h1, hl]
      obtain ⟨ps, p, s', e', g1, g2, g3, g4, g5, g6⟩ :=
        ih hes (i - (txt a).length) (j - (txt a).length) buf (by omega) (by omega)
      refine ⟨ps, p, s', e', ?_, g2, g3, ?_, g5, g6⟩
      · rw [show (j : Int) - (txt a).length = ((j - (txt a).length : Nat) : Int) by omega,
            show (i : Int) - (txt a).length = ((i - (txt a).length : Nat) : Int) by omega, g1]
      · rw [g4, show Spec.sub (txt a) i (min j (txt a).length) = [] by
          unfold Spec.sub; rw [List.drop_eq_nil_of_le (by omega)]; simp]
        rfl

theorem subLoop_past (e : Err) (es : List α) (h : ∀ a ∈ es, Good a) (i j : Nat) (buf : List α)
    (hij : i < j) (hj : (es.flatMap txt).length < j) : subLoop ops (some e) es i j buf = .error e := by
  induction es generalizing i j buf with
  | nil => rfl
  | cons a es ih =>
    have ha := h a (by simp)
    have hes : ∀ b ∈ es, Good b := fun b hb => h b (List.mem_cons_of_mem _ hb)
    have hl := F.length a ha
    simp only [List.flatMap_cons, List.length_append] at hj
    rw [subLoop]
    by_cases h1 : i < (txt a).length
    · rw [if_pos (by omega), if_neg (by omega), hl]
      obtain ⟨b, hb1, hb2, hb3⟩ := F.sub a ha i (txt a).length (by omega) le_rfl
      rw [hb1, bind_ok, show (j : Int) - (txt a).length = ((j - (txt a).length : Nat) : Int) by omega,
        show (0 : Int) = ((0 : Nat) : Int) from rfl]
      exact ih hes _ _ _ (by omega) (by omega)
    · rw [if_neg (by omega), hl, show (j : Int) - (txt a).length = ((j - (txt a).length : Nat) : Int) by omega,
        show (i : Int) - (txt a).length = ((i - (txt a).length : Nat) : Int) by omega]
      exact ih hes _ _ _ (by omega) (by omega)

/-- A proper slice of a composite that lies before the first object that is no leaf. -/
theorem subSequence_proper {r : Rope α} (hr : r.Full) (hat : ∀ a, r ≠ atom a)
    (h : ∀ a ∈ r.upToOther.seen, Good a) (i j : Nat) (hij : i < j)
    (hj : j ≤ (r.upToOther.seen.flatMap txt).length) (hl : (j : Int) ≤ r.length ops)
    (hne : ¬ (i = 0 ∧ (j : Int) = r.length ops)) :
    ∃ t, r.subSequence ops i j = .ok t ∧ t.Sane Good ∧ t.text txt = Spec.sub (r.upToOther.seen.flatMap txt) i j ∧
      t.length ops = sliceLength (r.upToOther.seen.map txt) i j := by
  obtain ⟨ps, p, s', e', g1, g2, g3, g4, g5, g6⟩ := subLoop_spec F r.upToOther.fault _ h i j [] hij hj
  have heq : r.subSequence ops i j = (do
      let (buffer, start, stop) ← subLoop ops r.upToOther.fault r.upToOther.seen i j []
      match buffer with
      | [] => (.error .assertion : Res (Rope α))
      | [a] => return atom a
      | buffer => return array buffer (stop - start)) := by
    have e1 := leaves_eq r hr
    have hgo : ∀ s : Rope α, s = r → (do
        checkPositionIndexes i j (s.length ops)
        if (i : Int) = j then return atom ops.empty
        if (i : Int) = 0 ∧ j = s.length ops then return s
        let (buffer, start, stop) ← subLoop ops s.leaves.fault s.leaves.seen i j []
        match buffer with
        | [] => (.error .assertion : Res (Rope α))
        | [a] => return atom a
        | buffer => return array buffer (stop - start)) = (do
        let (buffer, start, stop) ← subLoop ops r.upToOther.fault r.upToOther.seen i j []
        match buffer with
        | [] => (.error .assertion : Res (Rope α))
        | [a] => return atom a
        | buffer => return array buffer (stop - start)) := by
      rintro s rfl
      rw [checkPositionIndexes_ok ⟨by omega, by omega, hl⟩, bind_ok, if_neg (by omega), if_neg (by omega), e1]
    cases r with
    | atom a => exact absurd rfl (hat a)
    | concat l r n k => exact hgo _ rfl
    | array es n => exact hgo _ rfl
    | other n k => exact hgo _ rfl
  rw [heq, g1, bind_ok]
  simp only [List.nil_append]
  match ps, g2, g4 with
  | [], g2, g4 =>
    refine ⟨atom p, rfl, g3, ?_, ?_⟩
    · rw [← g4]; simp [text, flat]
    · rw [length, F.length p g3, g6]
  | q :: qs, g2, g4 =>
    have hres : (match q :: (qs ++ [p]) with
        | [] => (Except.error .assertion : Res (Rope α))
        | [a] => pure (atom a)
        | buffer => pure (array buffer (e' - s'))) = .ok (array (q :: (qs ++ [p])) (e' - s')) := by
      cases qs <;> rfl
    refine ⟨array (q :: (qs ++ [p])) (e' - s'), hres, ⟨by simp, ?_⟩, ?_, ?_⟩
    · intro x hx
      rcases List.mem_cons.1 hx with rfl | hx
      · exact g2 x (by simp)
      · rcases List.mem_append.1 hx with hx | hx
        · exact g2 x (List.mem_cons_of_mem _ hx)
        · rw [List.mem_singleton] at hx; subst hx; exact g3
    · rw [← g4]; simp [text, flat]
    · rw [length, g5, g6]

omit F in
theorem sliceLength_self (l : List JStr) (i : Nat) : sliceLength l i i = 0 := by
  induction l generalizing i with
  | nil => rfl
  | cons t ts ih =>
    rw [sliceLength]
    by_cases h : i < t.length
    · rw [if_pos h, if_pos (by omega)]; omega
    · rw [if_neg h, ih]

omit F in
theorem sliceLength_cut (l : List JStr) (j : Nat) (hj : j ≤ l.flatten.length) :
    sliceLength l 0 j = Spec.cutLength l j := by
  induction l generalizing j with
  | nil => simp at hj; subst hj; rfl
  | cons t ts ih =>
    rw [List.flatten_cons, List.length_append] at hj
    rw [sliceLength, Spec.cutLength]
    by_cases h1 : j ≤ t.length
    · by_cases h2 : 0 < t.length
      · rw [if_pos h2, if_pos h1, if_pos h1]; omega
      · rw [if_neg h2, if_pos h1, show j - t.length = 0 - t.length by omega, sliceLength_self]; omega
    · by_cases h2 : 0 < t.length
      · rw [if_pos h2, if_neg h1, if_neg h1, ih _ (by omega)]
      · rw [if_neg h2, if_neg h1, show 0 - t.length = 0 by omega, ih _ (by omega)]

theorem subSequence_ok {r : Rope α} (h : r.WF ops Good txt) (i j : Nat) (hij : i ≤ j) (hj : j ≤ (r.text txt).length) :
    ∃ t, r.subSequence ops i j = .ok t ∧ t.Sane Good ∧ t.text txt = Spec.sub (r.text txt) i j ∧
      t.length ops = sliceReports (r.flat.map txt) i j := by
  have hl := h.length_text F
  have hs := h.sane
  have htot : (r.flat.map txt).flatten = r.text txt := by rw [text, List.flatMap_def]
  rw [sliceReports, htot]
  by_cases hat : ∃ a, r = atom a
  · obtain ⟨a, rfl⟩ := hat
    have ht : (atom a).text txt = txt a := by simp [text, flat]
    rw [ht] at hj ⊢
    obtain ⟨b, h1, h2, h3⟩ := F.sub a h i j hij hj
    refine ⟨atom b, by rw [subSequence, h1]; rfl, h2, by simpa [text, flat] using h3, ?_⟩
    rw [length, F.length b h2, h3, Spec.sub]
    have hsl : sliceLength ((atom a).flat.map txt) i j = j - i := by
      change sliceLength [txt a] i j = _
      rw [sliceLength]
      by_cases h4 : i < (txt a).length
      · rw [if_pos h4, if_pos hj]
      · rw [if_neg h4, sliceLength]; omega
    rw [hsl]
    split_ifs <;> simp <;> omega
  have hat' : ∀ a, r ≠ atom a := fun a h => hat ⟨a, h⟩
  by_cases h1 : i = j
  · subst h1
    refine ⟨atom ops.empty, ?_, F.empty.1, ?_, ?_⟩
    · have hgo : ∀ s : Rope α, s = r → (do
          checkPositionIndexes i i (s.length ops)
          if (i : Int) = i then return atom ops.empty
          if (i : Int) = 0 ∧ i = s.length ops then return s
          let (buffer, start, stop) ← subLoop ops s.leaves.fault s.leaves.seen i i []
          match buffer with
          | [] => (.error .assertion : Res (Rope α))
          | [a] => return atom a
          | buffer => return array buffer (stop - start)) = .ok (atom ops.empty) := by
        rintro s rfl
        rw [checkPositionIndexes_ok ⟨by omega, by omega, by omega⟩, bind_ok, if_pos rfl]; rfl
      cases r with
      | atom a => exact absurd rfl (hat' a)
      | concat l r n k => exact hgo _ rfl
      | array es n => exact hgo _ rfl
      | other n k => exact hgo _ rfl
    · simp [text, flat, F.empty.2, Spec.sub]
    · rw [length, F.length _ F.empty.1, F.empty.2, sliceLength_self]
      split_ifs with h2
      · simp; omega
      · rfl
  by_cases h2 : i = 0 ∧ j = (r.text txt).length
  · obtain ⟨rfl, rfl⟩ := h2
    refine ⟨r, ?_, hs, by simp [Spec.sub], by rw [if_pos ⟨rfl, rfl⟩, hl]⟩
    have hgo : ∀ s : Rope α, s = r → (do
        checkPositionIndexes ((0 : Nat) : Int) (((r.text txt).length : Nat) : Int) (s.length ops)
        if ((0 : Nat) : Int) = (((r.text txt).length : Nat) : Int) then return atom ops.empty
        if ((0 : Nat) : Int) = 0 ∧ (((r.text txt).length : Nat) : Int) = s.length ops then return s
        let (buffer, start, stop) ← subLoop ops s.leaves.fault s.leaves.seen ((0 : Nat) : Int) (((r.text txt).length : Nat) : Int) []
        match buffer with
        | [] => (.error .assertion : Res (Rope α))
        | [a] => return atom a
        | buffer => return array buffer (stop - start)) = .ok s := by
      rintro s rfl
      rw [checkPositionIndexes_ok ⟨by omega, by omega, by omega⟩, bind_ok, if_neg (by omega), if_pos ⟨rfl, by omega⟩]; rfl
    cases r with
    | atom a => exact absurd rfl (hat' a)
    | concat l r n k => exact hgo _ rfl
    | array es n => exact hgo _ rfl
    | other n k => exact hgo _ rfl
  · rw [if_neg h2]
    have hu := hs.upTo
    have := subSequence_proper F hs.full hat' (by rw [hu]; exact hs.flat_good) i j (by omega) (by rw [hu]; exact hj)
      (by omega) (by omega)
    rw [hu] at this
    exact this

theorem subSequence_err {r : Rope α} (h : r.WF ops Good txt) (i j : Int)
    (hij : ¬ (0 ≤ i ∧ i ≤ j ∧ j ≤ (r.text txt).length)) : ∃ e, r.subSequence ops i j = .error e ∧ ((∀ a, r ≠ .atom a) → e = .indexOutOfBounds) := by
  have hl := h.length_text F
  cases r with
  | atom a =>
    obtain ⟨e, he⟩ := F.sub_out a h i j (by simpa [text, flat] using hij)
    exact ⟨e, by rw [subSequence, he]; rfl, fun h => absurd rfl (h a)⟩
  | concat l r n k => exact ⟨.indexOutOfBounds, by simp only [subSequence, hl, checkPositionIndexes_err hij]; rfl, fun _ => rfl⟩
  | array es n => exact ⟨.indexOutOfBounds, by simp only [subSequence, hl, checkPositionIndexes_err hij]; rfl, fun _ => rfl⟩
  | other n k => exact h.elim

theorem charAt_ok {r : Rope α} (h : r.WF ops Good txt) (i : Nat) (c : JChar) (hi : (r.text txt)[i]? = some c) :
    r.charAt ops i = .ok c := by
  have hl := h.length_text F
  have hlv := h.sane.leaves
  have hg := h.sane.flat_good
  have hlt : i < (r.text txt).length := (List.getElem?_eq_some_iff.1 hi).1
  have hloop := charAtLoop_ok F none r.flat hg i c hi
  have hck := checkPositionIndex_ok (i := i) (n := (r.text txt).length) ⟨by omega, by omega⟩
  cases r with
  | atom a => exact F.charAt a h i c (by simpa [text, flat] using hi)
  | concat l r n k => simp only [charAt, hl, hck, bind_ok, hlv, hloop]
  | array es n => simp only [charAt, hl, hck, bind_ok, hlv, hloop]
  | other n k => exact h.elim

theorem WF.agrees {r : Rope α} (h : r.WF ops Good txt) : Agrees ops r (r.text txt) := by
  have hl := h.length_text F
  have hlv := h.sane.leaves
  have hg := h.sane.flat_good
  refine ⟨hl, h.isEmpty F, charAt_ok F h, ?_, ?_, ?_, ?_, h.sane.appendToSB F, ?_⟩
  · intro i hi
    have hck := checkPositionIndex_err (i := i) (n := (r.text txt).length) (by omega)
    cases r with
    | atom a => exact F.charAt_out a h i (by simpa [text, flat] using hi)
    | concat l r n k => simp only [charAt, hl, hck]; rfl
    | array es n => simp only [charAt, hl, hck]; rfl
    | other n k => exact h.elim
  · intro c
    have hloop := indexOfLoop_eq F none r.flat hg c 0
    have : indexOfLoop ops none c r.flat 0 = .ok (Spec.firstIndex (r.text txt) c) := by
      rw [hloop, text]
      by_cases h1 : Spec.firstIndex (r.flat.flatMap txt) c = -1
      · rw [if_pos h1, h1]; rfl
      · rw [if_neg h1, Int.add_zero]
    cases r with
    | atom a => rw [indexOf, F.indexOf a h]; simp [text, flat]
    | concat l r n k => rw [indexOf, hlv]; exact this; simp
    | array es n => rw [indexOf, hlv]; exact this; simp
    | other n k => exact h.elim
  · intro c
    rw [startsWith, hl]
    match ht : r.text txt with
    | [] => simp
    | x :: t =>
      rw [if_pos (by simp), show (0 : Int) = ((0 : Nat) : Int) from rfl, charAt_ok F h 0 x (by rw [ht]; rfl)]
      simp [bind_ok]
  · cases r with
    | atom a => rw [toStr, F.toStr a h]; simp [text, flat]
    | concat l r n k => rw [toStr, h.sane.appendToSB F, List.nil_append]; simp
    | array es n => rw [toStr, h.sane.appendToSB F, List.nil_append]; simp
    | other n k => exact h.elim
  · obtain ⟨calls, c1, c2⟩ := leavesCalls_none F r.flat hg
    cases r with
    | atom a =>
      obtain ⟨calls, c1, c2⟩ := F.toAppendable a h
      exact ⟨calls, by rw [appendToCalls, c1], by rw [c2]; simp [text, flat]⟩
    | concat l r n k => exact ⟨calls, by rw [appendToCalls, hlv]; exact c1; simp, c2⟩
    | array es n => exact ⟨calls, by rw [appendToCalls, hlv]; exact c1; simp, c2⟩
    | other n k => exact h.elim

omit F in
theorem mkConcat_wf {l r : Rope α} (hl : l.WF ops Good txt) (hr : r.WF ops Good txt) :
    (mkConcat ops l r).WF ops Good txt := by
  cases l with
  | concat ll lr n k => exact ⟨hl.1, ⟨hl.2.1, hr, rfl⟩, rfl⟩
  | atom a => exact ⟨hl, hr, rfl⟩
  | array es n => exact ⟨hl, hr, rfl⟩
  | other n k => exact hl.elim

omit F in
theorem mkConcat_flat (l r : Rope α) : (mkConcat ops l r).flat = l.flat ++ r.flat := by
  cases l <;> simp [mkConcat, concat0, flat]

omit F in
theorem mkConcat_sane {l r : Rope α} (hl : l.Sane Good) (hr : r.Sane Good) : (mkConcat ops l r).Sane Good := by
  cases l with
  | concat ll lr n k => exact ⟨hl.1, hl.2, hr⟩
  | atom a => exact ⟨hl, hr⟩
  | array es n => exact ⟨hl, hr⟩
  | other n k => exact hl.elim

/-- The pieces of a rope, empty ones left out. -/
theorem append_spec {l r : Rope α} (hl : l.WF ops Good txt) (hr : r.WF ops Good txt) :
    (l.append ops r).WF ops Good txt ∧ (l.append ops r).text txt = l.text txt ++ r.text txt := by
  have hE := hr.isEmpty F
  have hc := mkConcat_wf hl hr
  have ht : (mkConcat ops l r).text txt = l.text txt ++ r.text txt := by simp [text, mkConcat_flat]
  have key : (if r.isEmpty ops then l else mkConcat ops l r).WF ops Good txt ∧
      (if r.isEmpty ops then l else mkConcat ops l r).text txt = l.text txt ++ r.text txt := by
    by_cases h1 : r.isEmpty ops = true
    · rw [if_pos h1, hE.1 h1]; exact ⟨hl, by simp⟩
    · rw [if_neg h1]; exact ⟨hc, ht⟩
  cases l with
  | atom a =>
    rw [append]
    by_cases h1 : ops.isEmptySeq a = true
    · rw [if_pos h1]
      exact ⟨hr, by simp [text, flat, F.emptySeq a hl h1]⟩
    · rw [if_neg h1]; exact key
  | concat ll lr n k => exact key
  | array es n => exact key
  | other n k => exact hl.elim

theorem prepend_spec {l r : Rope α} (hl : l.WF ops Good txt) (hr : r.WF ops Good txt) :
    (l.prepend ops r).WF ops Good txt ∧ (l.prepend ops r).text txt = r.text txt ++ l.text txt := by
  have hE := hr.isEmpty F
  have hc := mkConcat_wf hr hl
  have ht : (mkConcat ops r l).text txt = r.text txt ++ l.text txt := by simp [text, mkConcat_flat]
  have key : (if r.isEmpty ops then l else mkConcat ops r l).WF ops Good txt ∧
      (if r.isEmpty ops then l else mkConcat ops r l).text txt = r.text txt ++ l.text txt := by
    by_cases h1 : r.isEmpty ops = true
    · rw [if_pos h1, hE.1 h1]; exact ⟨hl, by simp⟩
    · rw [if_neg h1]; exact ⟨hc, ht⟩
  cases l with
  | atom a =>
    rw [prepend]
    by_cases h1 : ops.isEmptySeq a = true
    · rw [if_pos h1]
      exact ⟨hr, by simp [text, flat, F.emptySeq a hl h1]⟩
    · rw [if_neg h1]; exact key
  | concat ll lr n k => exact key
  | array es n => exact key
  | other n k => exact hl.elim

theorem join_spec (es : List α) (h : ∀ a ∈ es, Good a) :
    (join ops es).WF ops Good txt ∧ (join ops es).text txt = es.flatMap txt := by
  match es with
  | [] => exact ⟨F.empty.1, by simp [join, text, flat, F.empty.2]⟩
  | [a] => exact ⟨h a (by simp), by simp [join, text, flat]⟩
  | a :: b :: es => exact ⟨⟨by simp, h, sum_lengths F _ h⟩, rfl⟩

end Rope
end FastPrintf.Own
