/-
Property theorems about resources: the deque of the rope iterator (C71) and the call stack of the
compiler (C72).
-/
import Verif.Proofs.Resources
import Verif.Props.Rope
import Verif.Props.Compile

namespace FastPrintf
open Spec

theorem SeqExpr.eval_counted (e : SeqExpr) (s : Seq) (h : e.eval = .ok s) : s.Counted := by
  induction e generalizing s with
  | leaf e =>
    simp only [SeqExpr.eval, bind_eq_ok, pure_eq_ok, Except.ok.injEq] at h
    obtain ⟨a, _, rfl⟩ := h; trivial
  | concat l r ihl ihr =>
    simp only [SeqExpr.eval, bind_eq_ok, pure_eq_ok, Except.ok.injEq] at h
    obtain ⟨a, h1, b, h2, rfl⟩ := h
    exact Seq.mkConcat_counted (ihl _ h1) (ihr _ h2)
  | append l r ihl ihr =>
    simp only [SeqExpr.eval, bind_eq_ok, pure_eq_ok, Except.ok.injEq] at h
    obtain ⟨a, h1, b, h2, rfl⟩ := h
    exact Seq.append_counted (ihl _ h1) (ihr _ h2)
  | prepend l r ihl ihr =>
    simp only [SeqExpr.eval, bind_eq_ok, pure_eq_ok, Except.ok.injEq] at h
    obtain ⟨a, h1, b, h2, rfl⟩ := h
    exact Seq.prepend_counted (ihl _ h1) (ihr _ h2)
  | join es =>
    simp only [SeqExpr.eval, bind_eq_ok, pure_eq_ok, Except.ok.injEq] at h
    obtain ⟨as, _, rfl⟩ := h
    exact Seq.join_counted as
  | upper e ih =>
    simp only [SeqExpr.eval, bind_eq_ok] at h
    obtain ⟨a, _, h2⟩ := h
    exact Seq.upperCase_counted h2

theorem SeqExpr.eval_wf (e : SeqExpr) (s : Seq) (h : e.eval = .ok s) : s.WF := by
  have he := e.eval_spec
  cases hp : e.plain with
  | none => rw [hp] at he; obtain ⟨x, hx⟩ := he; rw [hx] at h; cases h
  | some t =>
    rw [hp] at he
    obtain ⟨s', h1, h2, _⟩ := he
    rw [h1] at h; cases h; exact h2

/-! ### C71: the shape of ropes -/

/-- **C71.** Whatever sequence operations built it, a sequence's `elementCount()` is the number of
leaves its iterator delivers, and the iterator's deque always stays below that number. -/
theorem C71_bound (e : SeqExpr) (s : Seq) (h : e.eval = .ok s) :
    ∃ ls, s.leaves = .ok ls ∧ s.elementCount = ls.length ∧ s.dequePeak < ls.length := by
  have hw := e.eval_wf s h
  exact ⟨s.flat, Seq.leaves_ok hw.sane, (e.eval_counted s h).eq, Seq.dequePeak_lt hw.sane⟩

/-- **C71.** The deque is exactly as large as the shape of the tree demands. -/
theorem C71_exact (e : SeqExpr) (s : Seq) (h : e.eval = .ok s)
    (hc : ∃ l r n k, s = .concat l r n k) : s.dequePeak = waiting s :=
  Seq.dequePeak_eq (e.eval_wf s h).sane hc

/-- **C71.** One concatenation costs at most one place on the deque on top of what the left part
needs, and nothing on top of what the right part needs. -/
theorem C71_step (l r : Seq) :
    waiting (Seq.mkConcat l r) ≤ max (waiting l + 1) (waiting r) ∧
    waiting r ≤ waiting (Seq.mkConcat l r) :=
  Seq.waiting_mkConcat l r

/-- **C71.** Prepending any number of non-empty leaves one by one to a leaf keeps the deque at one
element. -/
theorem C71_prepend (a : Atomic) (as : List Atomic) (ha : a.WF) (hne : a.length ≠ 0)
    (has : ∀ x ∈ as, x.WF ∧ x.length ≠ 0) (h : as ≠ []) :
    (prependAll (.atom a) (as.map .atom)).dequePeak = 1 := by
  have hs : (Seq.atom a) ≠ .atom .empty := by
    intro h0; exact Seq.ne_empty hne (by injection h0)
  obtain ⟨h1, _, h3⟩ := Seq.prependAll_waiting hs as (fun x hx => (has x hx).2) h
  rw [Seq.dequePeak_eq (Seq.prependAll_sane (s := .atom a) ha as (fun x hx => (has x hx).1)).sane h3,
    h1]
  rfl

/-- **C71, negated claim.** Appending non-empty leaves one by one does *not* keep the tree shallow or
the deque small: with `n + 2` leaves the tree has height `n + 1`, the greatest height a tree of that
many leaves can have, and the deque grows to `max 1 n`. -/
theorem C71_append (a b : Atomic) (as : List Atomic) (ha : a.WF ∧ a.length ≠ 0)
    (hb : b.WF ∧ b.length ≠ 0) (has : ∀ x ∈ as, x.WF ∧ x.length ≠ 0) :
    (appendAll (.atom a) ((b :: as).map .atom)).dequePeak = max 1 as.length ∧
    height (appendAll (.atom a) ((b :: as).map .atom)) = as.length + 1 := by
  obtain ⟨n, k, h⟩ := Seq.appendAll_shape ha.2 hb.2 as (fun x hx => (has x hx).2)
  have hw := Seq.appendAll_sane (s := .atom a) ha.1 (b :: as) (by
    intro x hx
    rcases List.mem_cons.1 hx with rfl | hx
    · exact hb.1
    · exact (has x hx).1)
  obtain ⟨h1, h2⟩ := Seq.plain_waiting (.atom b) as
  rw [Seq.dequePeak_eq hw.sane ⟨_, _, _, _, h⟩, h]
  simp only [waiting, height, h1, h2]
  constructor <;> omega

/-- **C71, negated claim.** Compared with plain concatenation of the same leaves, the rearrangement
saves exactly one place on the deque and nothing of the height. -/
theorem C71_rearranging (a b c : Atomic) (as : List Atomic) (ha : a.WF ∧ a.length ≠ 0)
    (hb : b.WF ∧ b.length ≠ 0) (hc : c.WF ∧ c.length ≠ 0)
    (has : ∀ x ∈ as, x.WF ∧ x.length ≠ 0) :
    (appendAll (.atom a) ((b :: c :: as).map .atom)).dequePeak + 1 =
      waiting (plainAppendAll (.atom a) ((b :: c :: as).map .atom)) ∧
    height (appendAll (.atom a) ((b :: c :: as).map .atom)) =
      height (plainAppendAll (.atom a) ((b :: c :: as).map .atom)) := by
  have hcas : ∀ x ∈ c :: as, x.WF ∧ x.length ≠ 0 := by
    intro x hx
    rcases List.mem_cons.1 hx with rfl | hx
    · exact hc
    · exact has x hx
  obtain ⟨h1, h2⟩ := C71_append a b (c :: as) ha hb hcas
  obtain ⟨g1, g2⟩ := Seq.plain_waiting (.atom a) (b :: c :: as)
  rw [h1, h2, g1, g2]
  simp only [List.length_cons, waiting, height]
  constructor <;> omega

/-- **C71, negated claim.** The capacity the iterator asks for, a quarter of the leaves but at least five, is
too small for every rope built by appending eight or more leaves one by one, and for no shorter one. -/
theorem C71_capacity (a b : Atomic) (as : List Atomic) (ha : a.WF ∧ a.length ≠ 0)
    (hb : b.WF ∧ b.length ≠ 0) (has : ∀ x ∈ as, x.WF ∧ x.length ≠ 0) :
    (appendAll (.atom a) ((b :: as).map .atom)).dequeCapacity = max 5 ((as.length + 2 : Nat) / 4 : Nat) ∧
    ((appendAll (.atom a) ((b :: as).map .atom)).dequeCapacity <
      (appendAll (.atom a) ((b :: as).map .atom)).dequePeak ↔ 6 ≤ as.length) := by
  obtain ⟨h1, _⟩ := C71_append a b as ha hb has
  have hcount : ∀ (l : List Atomic) (s : Seq), s.Counted → s ≠ .atom .empty →
      (∀ x ∈ l, x.length ≠ 0) →
      (appendAll s (l.map .atom)).Counted ∧
        (appendAll s (l.map .atom)).flat.length = s.flat.length + l.length := by
    intro l
    induction l with
    | nil => intro s h _ _; exact ⟨h, rfl⟩
    | cons x l ih =>
      intro s h hs hl
      have hx := hl x (by simp)
      have hf : (Seq.append s (.atom x)).flat.length = s.flat.length + 1 ∧
          Seq.append s (.atom x) ≠ .atom .empty := by
        unfold Seq.append
        split
        · exact absurd rfl hs
        · rw [Seq.isEmpty_atom hx]
          cases s <;> simp [Seq.mkConcat, Seq.concat0, Seq.flat, Nat.add_assoc]
      obtain ⟨k1, k2⟩ := ih _ (Seq.append_counted h (r := .atom x) trivial) hf.2
        (fun y hy => hl y (List.mem_cons_of_mem _ hy))
      refine ⟨k1, ?_⟩
      simp only [appendAll, List.map_cons, List.foldl_cons, List.length_cons] at k2 ⊢
      rw [k2, hf.1]; omega
  obtain ⟨c1, c2⟩ := hcount (b :: as) (.atom a) trivial
    (by intro h0; exact Seq.ne_empty ha.2 (by injection h0))
    (by
      intro x hx
      rcases List.mem_cons.1 hx with rfl | hx
      · exact hb.2
      · exact (has x hx).2)
  have : (appendAll (.atom a) ((b :: as).map .atom)).elementCount = as.length + 2 := by
    rw [c1.eq, c2]
    simp only [Seq.flat, List.length_cons, List.length_nil]; omega
  rw [h1, Seq.dequeCapacity, this]
  constructor
  · omega
  · omega

/-- Ten one-character leaves, appended and prepended. -/
example :
    let as := (List.range 9).map (fun i => Seq.ch (49 + i))
    (appendAll (Seq.ch 48) as).dequePeak = 8 ∧
    (appendAll (Seq.ch 48) as).dequeCapacity = 5 ∧
    (prependAll (Seq.ch 48) as).dequePeak = 1 ∧
    waiting (plainAppendAll (Seq.ch 48) as) = 9 := by decide

/-- A balanced tree of eight leaves needs three places: the bound is far from reached there. -/
example :
    let p (a b : Seq) := Seq.concat0 a b
    let c := Seq.ch 65
    (p (p (p c c) (p c c)) (p (p c c) (p c c))).dequePeak = 3 := by decide

/-! ### C72: the call stack of the compiler -/

/-- **C72.** Compiling a well-formed format string leaves one call open for each literal run and two
for each directive or `%%`, all at the same time, and one more for the end. -/
theorem C72_frames (env : DateSyntax) (s : JStr) (ps : List Piece) (h : Reading env s ps) :
    Compiler.compileFrames env s = (ps.map Piece.calls).sum + 1 :=
  frames_reading env _ s 0 ps (by omega) h

/-- **C72.** For every string, well-formed or not, the calls open at the same time are at most one
more than its characters. -/
theorem C72_bound (env : DateSyntax) (s : JStr) :
    Compiler.compileFrames env s ≤ s.length + 1 :=
  frames_le env _ s 0

/-- **C72.** The bound is reached by strings of any even length, so no fixed stack is enough for all
format strings: `%n%n…%n` and `%%%%…%%`. -/
theorem C72_reached (env : DateSyntax) (n : Nat) :
    Compiler.compileFrames env (List.replicate n (js! "%n")).flatten = 2 * n + 1 ∧
    Compiler.compileFrames env (List.replicate n (js! "%%")).flatten = 2 * n + 1 := by
  have text : ∀ (p : Piece) (n : Nat),
      (List.replicate n p).flatMap Piece.text = (List.replicate n p.text).flatten := by
    intro p n; rw [List.flatMap_def, List.map_replicate]
  have sep : ∀ (p : Piece) (n : Nat), (∀ ps, MayFollow p ps) → Separated (List.replicate n p) := by
    intro p n hp
    induction n with
    | zero => trivial
    | succ n ih => exact ⟨hp _, ih⟩
  have sum : ∀ (p : Piece) (n : Nat), p.calls = 2 →
      ((List.replicate n p).map Piece.calls).sum = 2 * n := by
    intro p n hp
    rw [List.map_replicate, hp]
    simp; omega
  constructor
  · have hr : Reading env (List.replicate n (js! "%n")).flatten
        (List.replicate n (.dir ⟨[], .absent, .absent, ch! 'n', none⟩)) := by
      refine ⟨text _ n, ?_, sep _ n ?_⟩
      · intro p hp
        rw [(List.mem_replicate.1 hp).2]
        exact ⟨by simp, by simp, trivial, trivial, by decide, by simp, by simp⟩
      · intro ps h
        rcases h with h | h <;> simp at h
    rw [C72_frames env _ _ hr, sum _ n rfl]
  · have hr : Reading env (List.replicate n (js! "%%")).flatten (List.replicate n .percent) := by
      refine ⟨text _ n, ?_, sep _ n (fun _ => trivial)⟩
      intro p hp
      rw [(List.mem_replicate.1 hp).2]; trivial
    rw [C72_frames env _ _ hr, sum _ n rfl]

/-- A literal run, a directive, `%%` and a last literal run: `1 + 2 + 2 + 1` calls and the end. -/
example : Compiler.compileFrames sampleDates (js! "ab%5d%%c") = 7 := by decide

/-- A string that is refused at its second directive: the calls open then are `1 + 2 + 2`. -/
example : Compiler.compileFrames sampleDates (js! "ab%5d%!xyz%d") = 5 ∧
    ∃ e, Compiler.compile sampleDates (js! "ab%5d%!xyz%d") = .error e := by
  refine ⟨by decide, .syntaxErr (.unknownSpecifier (ch! '!')) 6, by decide⟩

end FastPrintf
