/-
Property theorems about character sequences (ropes): C21, C22 and the rope half of C44.
-/
import Verif.Proofs.Seq

namespace FastPrintf

/-- Every observation a client can make of the sequence `s` is the observation of the string `t`. -/
structure Agrees (s : Seq) (t : JStr) : Prop where
  length : s.length = t.length
  isEmpty : s.isEmpty = true ↔ t = []
  charAt : ∀ (i : Nat) (c : JChar), t[i]? = some c → s.charAt i = .ok c
  charAt_out : ∀ i : Int, i < 0 ∨ (t.length : Int) ≤ i → s.charAt i = .error .indexOutOfBounds
  indexOf : ∀ c, s.indexOf c = .ok (Spec.firstIndex t c)
  toStr : s.toStr = .ok t
  toBuilder : ∀ sb, s.appendToSB sb = .ok (sb ++ t)
  toAppendable : ∃ calls, s.appendToCalls = .ok calls ∧ calls.flatten = t

theorem Seq.WF.agrees {s : Seq} (h : s.WF) : Agrees s s.text where
  length := h.length_text
  isEmpty := by
    have := h.length_text
    simp only [Seq.isEmpty, beq_iff_eq, ← List.length_eq_zero_iff]; omega
  charAt i c hc := by
    have hi : i < s.text.length := by
      by_contra hn; rw [List.getElem?_eq_none (by omega)] at hc; cases hc
    obtain h1 := Seq.charAt_ok h (i := i) (by omega)
    simp only [Int.toNat_natCast, hc] at h1
    simpa using h1
  charAt_out i hi := Seq.charAt_err h (by omega)
  indexOf c := Seq.indexOf_ok h.sane c
  toStr := Seq.toStr_ok h.sane
  toBuilder sb := Seq.appendToSB_ok h.sane sb
  toAppendable := Seq.appendToCalls_ok h.sane

theorem LeafExpr.eval_spec (e : LeafExpr) :
    match e.plain with
    | some t => ∃ a, e.eval = .ok a ∧ a.WF ∧ a.text = t
    | none => ∃ x, e.eval = .error x := by
  induction e with
  | empty => exact ⟨_, rfl, trivial, rfl⟩
  | ch c => exact ⟨_, rfl, Atomic.wf_ch c, Atomic.text_ch c⟩
  | wrap s => exact ⟨_, rfl, Atomic.wrap_spec s⟩
  | wrapRange s i j =>
    simp only [LeafExpr.plain, LeafExpr.eval]
    split_ifs with h
    · exact Atomic.wrapRange_ok h
    · exact ⟨_, Atomic.wrapRange_err h⟩
  | repeated c n =>
    simp only [LeafExpr.plain, LeafExpr.eval]
    split_ifs with h
    · exact Atomic.mkRepeated_ok h
    · exact ⟨_, Atomic.mkRepeated_err h⟩
  | forArray a => exact ⟨_, rfl, Atomic.forArray_spec a⟩
  | forArrayRange a st n =>
    simp only [LeafExpr.plain, LeafExpr.eval, Atomic.forArrayRange]
    split_ifs with h
    · rw [checkPositionIndexes_ok (by omega)]
      refine ⟨_, rfl, ?_, ?_⟩
      · simp only [Atomic.WF]; omega
      · simp only [Atomic.text, Spec.sub, Bool.false_eq_true, if_false, List.map_id']
        rw [show (st + n).toNat - st.toNat = n.toNat by omega]
    · rw [checkPositionIndexes_err (by omega)]
      exact ⟨_, rfl⟩
  | lazy s => exact Atomic.mkLazy_ok s
  | upper e ih =>
    simp only [LeafExpr.plain, LeafExpr.eval]
    cases he : e.plain with
    | none =>
      rw [he] at ih
      obtain ⟨x, hx⟩ := ih
      exact ⟨x, by rw [hx]; rfl⟩
    | some t =>
      rw [he] at ih
      obtain ⟨a, h1, h2, h3⟩ := ih
      subst h3
      rw [h1]
      exact Atomic.upperCase_ok h2
  | sub e i j ih =>
    simp only [LeafExpr.plain, LeafExpr.eval]
    cases he : e.plain with
    | none =>
      rw [he] at ih
      obtain ⟨x, hx⟩ := ih
      exact ⟨x, by rw [hx]; rfl⟩
    | some t =>
      rw [he] at ih
      obtain ⟨a, h1, h2, h3⟩ := ih
      subst h3
      rw [h1]
      simp only [Option.bind_some, bind_ok]
      split_ifs with h
      · exact Atomic.subSequence_ok h2 h
      · exact Atomic.subSequence_err h2 h

theorem LeafExpr.mapM_spec (es : List LeafExpr) :
    match es.mapM LeafExpr.plain with
    | some ts => ∃ as, es.mapM LeafExpr.eval = .ok as ∧ (∀ a ∈ as, a.WF) ∧
        as.map Atomic.text = ts
    | none => ∃ x, es.mapM LeafExpr.eval = .error x := by
  induction es with
  | nil => exact ⟨[], rfl, by simp, rfl⟩
  | cons e es ih =>
    have he := e.eval_spec
    simp only [List.mapM_cons]
    cases h1 : e.plain with
    | none =>
      rw [h1] at he
      obtain ⟨x, hx⟩ := he
      exact ⟨x, by rw [hx]; rfl⟩
    | some t =>
      rw [h1] at he
      obtain ⟨a, h2, h3, h4⟩ := he
      cases h5 : es.mapM LeafExpr.plain with
      | none =>
        rw [h5] at ih
        obtain ⟨x, hx⟩ := ih
        exact ⟨x, by rw [h2, hx]; rfl⟩
      | some ts =>
        rw [h5] at ih
        obtain ⟨as, h6, h7, h8⟩ := ih
        refine ⟨a :: as, by rw [h2, h6]; rfl, ?_, by simp [h4, h8]⟩
        intro b hb
        rcases List.mem_cons.1 hb with rfl | hb
        · exact h3
        · exact h7 b hb

theorem SeqExpr.eval_spec (e : SeqExpr) :
    match e.plain with
    | some t => ∃ s, e.eval = .ok s ∧ s.WF ∧ s.text = t
    | none => ∃ x, e.eval = .error x := by
  have two : ∀ (l r : SeqExpr) (f : Seq → Seq → Seq) (g : JStr → JStr → JStr)
      (hf : ∀ a b : Seq, a.WF → b.WF → (f a b).WF ∧ (f a b).text = g a.text b.text)
      (ihl : match l.plain with
        | some t => ∃ s, l.eval = .ok s ∧ s.WF ∧ s.text = t
        | none => ∃ x, l.eval = .error x)
      (ihr : match r.plain with
        | some t => ∃ s, r.eval = .ok s ∧ s.WF ∧ s.text = t
        | none => ∃ x, r.eval = .error x),
      match (l.plain.bind fun a => r.plain.map fun b => g a b) with
      | some t => ∃ s, (do return f (← l.eval) (← r.eval) : Res Seq) = .ok s ∧ s.WF ∧ s.text = t
      | none => ∃ x, (do return f (← l.eval) (← r.eval) : Res Seq) = .error x := by
    intro l r f g hf ihl ihr
    cases h1 : l.plain with
    | none =>
      rw [h1] at ihl
      obtain ⟨x, hx⟩ := ihl
      exact ⟨x, by rw [hx]; rfl⟩
    | some t =>
      rw [h1] at ihl
      obtain ⟨a, h2, h3, h4⟩ := ihl
      cases h5 : r.plain with
      | none =>
        rw [h5] at ihr
        obtain ⟨x, hx⟩ := ihr
        exact ⟨x, by rw [h2, hx]; rfl⟩
      | some u =>
        rw [h5] at ihr
        obtain ⟨b, h6, h7, h8⟩ := ihr
        subst h4 h8
        exact ⟨f a b, by rw [h2, h6]; rfl, hf a b h3 h7⟩
  induction e with
  | leaf e =>
    have he := e.eval_spec
    simp only [SeqExpr.plain, SeqExpr.eval]
    cases h1 : e.plain with
    | none =>
      rw [h1] at he
      obtain ⟨x, hx⟩ := he
      exact ⟨x, by rw [hx]; rfl⟩
    | some t =>
      rw [h1] at he
      obtain ⟨a, h2, h3, h4⟩ := he
      exact ⟨.atom a, by rw [h2]; rfl, h3, h4⟩
  | concat l r ihl ihr =>
    exact two l r Seq.mkConcat (· ++ ·)
      (fun a b ha hb => ⟨Seq.mkConcat_wf ha hb, Seq.mkConcat_text a b⟩) ihl ihr
  | append l r ihl ihr =>
    exact two l r Seq.append (· ++ ·)
      (fun a b ha hb => ⟨Seq.append_wf ha hb, Seq.append_text hb.sane⟩) ihl ihr
  | prepend l r ihl ihr =>
    exact two l r Seq.prepend (fun a b => b ++ a)
      (fun a b ha hb => ⟨Seq.prepend_wf ha hb, Seq.prepend_text hb.sane⟩) ihl ihr
  | join es =>
    have he := LeafExpr.mapM_spec es
    simp only [SeqExpr.plain, SeqExpr.eval]
    cases h1 : es.mapM LeafExpr.plain with
    | none =>
      rw [h1] at he
      obtain ⟨x, hx⟩ := he
      exact ⟨x, by rw [hx]; rfl⟩
    | some ts =>
      rw [h1] at he
      obtain ⟨as, h2, h3, h4⟩ := he
      subst h4
      refine ⟨Seq.join as, by rw [h2]; rfl, (Seq.join_spec h3).1, ?_⟩
      rw [(Seq.join_spec h3).2, List.flatMap_def]
  | upper e ih =>
    simp only [SeqExpr.plain, SeqExpr.eval]
    cases h1 : e.plain with
    | none =>
      rw [h1] at ih
      obtain ⟨x, hx⟩ := ih
      exact ⟨x, by rw [hx]; rfl⟩
    | some t =>
      rw [h1] at ih
      obtain ⟨a, h2, h3, h4⟩ := ih
      subst h4
      rw [h2]
      exact Seq.upperCase_ok h3

/-- **C21.** For every finite history `e` of sequence operations: if all its arguments are in range
the operations succeed and the resulting sequence is observationally the plain string; otherwise the
history throws. -/
theorem C21_rope_denotes_string (e : SeqExpr) :
    (∀ t, e.plain = some t → ∃ s, e.eval = .ok s ∧ Agrees s t) ∧
    (e.plain = none → ∃ x, e.eval = .error x) := by
  have h := e.eval_spec
  constructor
  · intro t ht
    rw [ht] at h
    obtain ⟨s, h1, h2, h3⟩ := h
    exact ⟨s, h1, h3 ▸ h2.agrees⟩
  · intro hn
    rw [hn] at h
    exact h

/-- A history using every kind of combinator, with its plain reading. -/
example : (SeqExpr.upper (.append (.prepend (.leaf (.sub (.wrap (js! "hello")) 1 4)) (.leaf (.repeated 48 3)))
      (.concat (.join [.ch 33, .forArray (js! "xy"), .lazy (js! "42")]) (.leaf .empty)))).plain
    = some (js! "000ELL!XY42") := by decide

/-- An out-of-range history. -/
example : (SeqExpr.leaf (.sub (.wrap (js! "hello")) 1 9)).plain = none := by decide

theorem withinOnePiece_iff (es : List Atomic) (i j : Nat) :
    WithinOnePiece (es.map Atomic.text) i j ↔ Seq.InOneLeaf es i j := by
  constructor
  · rintro ⟨pre, p, post, h1, h2, h3⟩
    obtain ⟨l1, l2, rfl, rfl, h5⟩ := List.map_eq_append_iff.1 h1
    obtain ⟨a, l3, rfl, rfl, rfl⟩ := List.map_eq_cons_iff.1 h5
    refine ⟨l1, a, l3, rfl, ?_, ?_⟩ <;> rw [List.flatMap_def] <;> omega
  · rintro ⟨pre, a, post, rfl, h2, h3⟩
    rw [List.flatMap_def] at h2 h3
    exact ⟨pre.map Atomic.text, a.text, post.map Atomic.text, by simp, by omega, by omega⟩

theorem withinOnePiece_cons (p : JStr) (ps : List JStr) (i j : Nat) :
    WithinOnePiece (p :: ps) i j ↔
      j ≤ p.length ∨ (p.length ≤ i ∧ p.length ≤ j ∧ WithinOnePiece ps (i - p.length) (j - p.length))
      ∨ (p.length ≤ i ∧ j < p.length ∧ ps ≠ []) := by
  constructor
  · rintro ⟨pre, b, post, h1, h2, h3⟩
    cases pre with
    | nil =>
      simp only [List.nil_append, List.cons.injEq] at h1
      obtain ⟨rfl, rfl⟩ := h1
      left; simpa using h3
    | cons c pre =>
      simp only [List.cons_append, List.cons.injEq] at h1
      obtain ⟨rfl, rfl⟩ := h1
      simp only [List.flatten_cons, List.length_append] at h2 h3
      by_cases h : p.length ≤ j
      · right; left
        exact ⟨by omega, h, pre, b, post, rfl, by omega, by omega⟩
      · left; omega
  · rintro (h | ⟨h0, h1, pre, b, post, rfl, h2, h3⟩ | ⟨h1, h2, h3⟩)
    · exact ⟨[], p, ps, rfl, by simp, by simpa using h⟩
    · refine ⟨p :: pre, b, post, rfl, ?_, ?_⟩ <;>
        simp only [List.flatten_cons, List.length_append] <;> omega
    · exact ⟨[], p, ps, rfl, by simp, by simp; omega⟩

/-- Empty pieces are irrelevant to a non-empty slice. -/
theorem withinOnePiece_filter (ps : List JStr) (i j : Nat) (h : i < j) :
    WithinOnePiece (ps.filter (· ≠ [])) i j ↔ WithinOnePiece ps i j := by
  induction ps generalizing i j with
  | nil => rfl
  | cons p ps ih =>
    by_cases hp : p = []
    · subst hp
      rw [List.filter_cons_of_neg (by simp), withinOnePiece_cons, ih i j h]
      simp only [List.length_nil, Nat.sub_zero]
      constructor
      · intro h1; right; left; exact ⟨by omega, by omega, h1⟩
      · rintro (h1 | ⟨_, _, h1⟩ | h1)
        · omega
        · exact h1
        · omega
    · rw [List.filter_cons_of_pos (by simpa using hp), withinOnePiece_cons, withinOnePiece_cons]
      constructor <;> rintro (h1 | ⟨h0, h1, h2⟩ | ⟨h1, h2, h3⟩)
      · exact Or.inl h1
      · exact Or.inr (Or.inl ⟨h0, h1, (ih _ _ (by omega)).1 h2⟩)
      · omega
      · exact Or.inl h1
      · exact Or.inr (Or.inl ⟨h0, h1, (ih _ _ (by omega)).2 h2⟩)
      · omega

theorem filter_flat_of_text_nil {s : Seq} (h : s.text = []) :
    (s.flat.map Atomic.text).filter (· ≠ []) = [] := by
  rw [← Seq.flat_text, List.flatMap_def, List.flatten_eq_nil_iff] at h
  rw [List.filter_eq_nil_iff]
  intro a ha
  simp [h a ha]

theorem append_pieces {s t : Seq} (ht : t.Sane) :
    ((s.append t).flat.map Atomic.text).filter (· ≠ []) =
      (s.flat.map Atomic.text).filter (· ≠ []) ++ (t.flat.map Atomic.text).filter (· ≠ []) := by
  unfold Seq.append; split
  · simp [Seq.flat, Atomic.text]
  · split
    · next h =>
      rw [filter_flat_of_text_nil (ht.text_of_length_zero (by simpa [Seq.isEmpty] using h))]; simp
    · rw [Seq.mkConcat_flat]; simp

theorem prepend_pieces {s t : Seq} (ht : t.Sane) :
    ((s.prepend t).flat.map Atomic.text).filter (· ≠ []) =
      (t.flat.map Atomic.text).filter (· ≠ []) ++ (s.flat.map Atomic.text).filter (· ≠ []) := by
  unfold Seq.prepend; split
  · simp [Seq.flat, Atomic.text]
  · split
    · next h =>
      rw [filter_flat_of_text_nil (ht.text_of_length_zero (by simpa [Seq.isEmpty] using h))]; simp
    · rw [Seq.mkConcat_flat]; simp

theorem join_pieces (as : List Atomic) :
    ((Seq.join as).flat.map Atomic.text).filter (· ≠ []) =
      (as.map Atomic.text).filter (· ≠ []) := by
  match as with
  | [] => rfl
  | [a] => rfl
  | a :: b :: t => rfl

theorem filter_map_upper (ps : List JStr) :
    (ps.map (·.map Spec.upper)).filter (· ≠ []) =
      (ps.filter (· ≠ [])).map (·.map Spec.upper) := by
  rw [List.filter_map]
  congr 1
  apply List.filter_congr
  intro x _
  simp

/-- The leaves of the rope a history builds are the history's pieces, up to empty ones. -/
theorem SeqExpr.pieces_spec (e : SeqExpr) (t : JStr) (ht : e.plain = some t) (s : Seq)
    (h : e.eval = .ok s) :
    (s.flat.map Atomic.text).filter (· ≠ []) = e.pieces.filter (· ≠ []) ∧ e.pieces.flatten = t := by
  have sub2 : ∀ {l r : SeqExpr} {g : JStr → JStr → JStr} {t : JStr},
      (l.plain.bind fun a => r.plain.map fun b => g a b) = some t →
      ∃ a b, l.plain = some a ∧ r.plain = some b ∧ g a b = t := by
    intro l r g t h
    cases hl : l.plain with
    | none => simp [hl] at h
    | some a =>
      cases hr : r.plain with
      | none => simp [hl, hr] at h
      | some b => exact ⟨a, b, rfl, rfl, by simpa [hl, hr] using h⟩
  have ev : ∀ {e : SeqExpr} {t : JStr}, e.plain = some t → ∃ s, e.eval = .ok s ∧ s.WF ∧ s.text = t := by
    intro e t he
    have := e.eval_spec
    rw [he] at this
    exact this
  induction e generalizing t s with
  | leaf e =>
    obtain ⟨s', h1, h2, h3⟩ := ev ht
    obtain rfl : s' = s := by rw [h1] at h; exact Except.ok.inj h
    simp only [SeqExpr.plain] at ht
    simp only [SeqExpr.eval] at h1
    cases he : e.eval with
    | error x => rw [he] at h1; cases h1
    | ok a =>
      rw [he] at h1
      simp only [bind_ok, pure_eq_ok, Except.ok.injEq] at h1
      subst h1
      simp only [Seq.text] at h3
      simp [SeqExpr.pieces, ht, Seq.flat, h3]
  | concat l r ihl ihr =>
    obtain ⟨a, b, h1, h2, rfl⟩ := sub2 (g := (· ++ ·)) ht
    obtain ⟨x, hx, _⟩ := ev h1
    obtain ⟨y, hy, hyw, _⟩ := ev h2
    simp only [SeqExpr.eval, hx, hy, bind_ok, pure_eq_ok, Except.ok.injEq] at h
    subst h
    obtain ⟨i1, i2⟩ := ihl a h1 x hx
    obtain ⟨j1, j2⟩ := ihr b h2 y hy
    rw [Seq.mkConcat_flat, List.map_append, List.filter_append, i1, j1]
    simp [SeqExpr.pieces, i2, j2]
  | append l r ihl ihr =>
    obtain ⟨a, b, h1, h2, rfl⟩ := sub2 (g := (· ++ ·)) ht
    obtain ⟨x, hx, _⟩ := ev h1
    obtain ⟨y, hy, hyw, _⟩ := ev h2
    simp only [SeqExpr.eval, hx, hy, bind_ok, pure_eq_ok, Except.ok.injEq] at h
    subst h
    obtain ⟨i1, i2⟩ := ihl a h1 x hx
    obtain ⟨j1, j2⟩ := ihr b h2 y hy
    rw [append_pieces hyw.sane, i1, j1]
    simp [SeqExpr.pieces, i2, j2]
  | prepend l r ihl ihr =>
    obtain ⟨a, b, h1, h2, rfl⟩ := sub2 (g := fun a b => b ++ a) ht
    obtain ⟨x, hx, _⟩ := ev h1
    obtain ⟨y, hy, hyw, _⟩ := ev h2
    simp only [SeqExpr.eval, hx, hy, bind_ok, pure_eq_ok, Except.ok.injEq] at h
    subst h
    obtain ⟨i1, i2⟩ := ihl a h1 x hx
    obtain ⟨j1, j2⟩ := ihr b h2 y hy
    rw [prepend_pieces hyw.sane, i1, j1]
    simp [SeqExpr.pieces, i2, j2]
  | join es =>
    have hm := LeafExpr.mapM_spec es
    simp only [SeqExpr.plain] at ht
    cases h1 : es.mapM LeafExpr.plain with
    | none => rw [h1] at ht; simp at ht
    | some ts =>
      rw [h1] at hm
      obtain ⟨as, g1, g2, g3⟩ := hm
      simp only [SeqExpr.eval, g1, bind_ok, pure_eq_ok, Except.ok.injEq] at h
      subst h
      simp only [h1, Option.map_some, Option.some.injEq] at ht
      have hp : es.flatMap (fun e => e.plain.toList) = ts := by
        clear g1 g3 ht
        induction es generalizing ts with
        | nil => simp [List.mapM_nil] at h1; subst h1; rfl
        | cons e es ih =>
          rw [List.mapM_cons] at h1
          cases he : e.plain with
          | none => simp [he] at h1
          | some u =>
            cases he2 : es.mapM LeafExpr.plain with
            | none => simp [he, he2] at h1
            | some us =>
              simp only [he, he2, Option.bind_eq_bind, Option.bind_some, Option.pure_def,
                Option.some.injEq] at h1
              subst h1
              simp [he, ih us he2]
      rw [join_pieces, g3]
      simp only [SeqExpr.pieces, hp]
      exact ⟨trivial, ht⟩
  | upper e ih =>
    simp only [SeqExpr.plain, Option.map_eq_some_iff] at ht
    obtain ⟨u, h1, rfl⟩ := ht
    obtain ⟨x, hx, hw, _⟩ := ev h1
    simp only [SeqExpr.eval, hx, bind_ok] at h
    obtain ⟨i1, i2⟩ := ih u h1 x hx
    rw [Seq.upperCase_pieces hw.sane h, filter_map_upper, i1]
    simp only [SeqExpr.pieces, filter_map_upper, true_and]
    rw [← i2, List.map_flatten]

/-- **C22.** For every sequence built by any history and every range: an out-of-range request throws;
an in-range one returns a sequence whose text is the requested slice; its reported length is never
more than `j - i`, and it is right exactly when the slice is empty, is the whole text, or lies inside
a single piece.  When it is right, every observation agrees with the plain slice. -/
theorem C22_subSequence (e : SeqExpr) (s : Seq) (h : e.eval = .ok s) (t : JStr)
    (ht : e.plain = some t) :
    (∀ i j : Int, ¬ (0 ≤ i ∧ i ≤ j ∧ j ≤ t.length) → ∃ x, s.subSequence i j = .error x) ∧
    ∀ i j : Nat, i ≤ j → j ≤ t.length →
      ∃ u, s.subSequence i j = .ok u ∧
        u.toStr = .ok (Spec.sub t i j) ∧
        (∀ sb, u.appendToSB sb = .ok (sb ++ Spec.sub t i j)) ∧
        (∃ calls, u.appendToCalls = .ok calls ∧ calls.flatten = Spec.sub t i j) ∧
        u.length ≤ (j : Int) - i ∧
        (u.length = (j : Int) - i ↔
          (i = j ∨ (i = 0 ∧ j = t.length) ∨ WithinOnePiece e.pieces i j)) ∧
        (u.length = (j : Int) - i → Agrees u (Spec.sub t i j)) := by
  have he := e.eval_spec
  rw [ht] at he
  obtain ⟨s', h1, h2, h3⟩ := he
  obtain rfl : s' = s := by rw [h1] at h; exact Except.ok.inj h
  obtain ⟨hp, _⟩ := e.pieces_spec t ht s' h1
  subst h3
  refine ⟨fun i j hij => Seq.subSequence_err h2 hij, ?_⟩
  intro i j hij hj
  obtain ⟨u, g1, g2, g3, g4, g5, g6, g7⟩ := Seq.subSequence_ok h2 (i := i) (j := j) (by omega)
  simp only [Int.toNat_natCast] at g3
  refine ⟨u, g1, g3 ▸ Seq.toStr_ok g2, fun sb => g3 ▸ Seq.appendToSB_ok g2 sb,
    g3 ▸ Seq.appendToCalls_ok g2, g5, ?_, fun hl => g3 ▸ (g7 hl).agrees⟩
  rw [g6, ← withinOnePiece_iff]
  by_cases hlt : i < j
  · rw [← withinOnePiece_filter _ i j hlt, hp, withinOnePiece_filter _ i j hlt]
    constructor <;> rintro (h | h | h)
    · left; omega
    · right; left; omega
    · right; right; exact h
    · left; omega
    · right; left; omega
    · right; right; exact h
  · obtain rfl : i = j := by omega
    simp

/-- The defect of C22 on a concrete sequence: "ab" + "cd" sliced to [0,3) holds "abc" but reports
length 1. -/
example :
    ((do let s ← (SeqExpr.append (.leaf (.wrap (js! "ab"))) (.leaf (.wrap (js! "cd")))).eval
         let u ← s.subSequence 0 3
         return (u.length, ← u.toStr)) : Res (Int × JStr)) = .ok (1, js! "abc") := by rfl

/-- The same slice inside one piece is right. -/
example :
    ((do let s ← (SeqExpr.append (.leaf (.wrap (js! "ab"))) (.leaf (.wrap (js! "cdef")))).eval
         let u ← s.subSequence 3 6
         return (u.length, ← u.toStr)) : Res (Int × JStr)) = .ok (3, js! "def") := by rfl

/-- Feeding the result of a multi-piece slice back into a range check fails: the reported length is
what the next operation trusts.  (`"abc"` has a character at index 2, but asking for it throws.) -/
example :
    ((do let s ← (SeqExpr.append (.leaf (.wrap (js! "ab"))) (.leaf (.wrap (js! "cd")))).eval
         let u ← s.subSequence 0 3
         u.charAt 2) : Res JChar) = .error .indexOutOfBounds := by rfl

/-- **C44 (rope joiner).** `Seq.join` of any list of leaves is the concatenation of their texts. -/
theorem C44_rope_join (ls : List LeafExpr) (ts : List JStr)
    (h : ls.mapM LeafExpr.plain = some ts) :
    ∃ s, (SeqExpr.join ls).eval = .ok s ∧ Agrees s ts.flatten :=
  (C21_rope_denotes_string (.join ls)).1 ts.flatten (by simp [SeqExpr.plain, h])

example : [LeafExpr.wrap (js! "ab"), .repeated 120 2].mapM LeafExpr.plain
    = some [js! "ab", js! "xx"] := by decide

end FastPrintf
