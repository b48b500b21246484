/-
What `format(target, args)` leaves in the target when the target is among the arguments.
-/
import Verif.Model.Alias
import Verif.Spec.Semantics

namespace FastPrintf.Spec
open Alias

/-- The trouble: the text of the target, two characters or more, is put after padding without being cut. -/
def Entangled (d : Directive) (cur : JStr) : Prop :=
  d.conv = ch! 's' ∧ ch! '-' ∉ d.flags ∧ (∀ p, d.prec.precision = some p → cur.length ≤ p) ∧
    2 ≤ cur.length ∧ cur.length < d.width.width

/-- What `%s` or `%S` prints of a text. -/
def shownText (d : Directive) (cur : JStr) : JStr :=
  let t := d.padded (cut d.prec.precision cur)
  if d.conv = ch! 'S' then t.map upper else t

/-- The padding in front of the target's text. -/
def leading (d : Directive) (cur : JStr) : JStr := List.replicate (d.width.width - cur.length) (ch! ' ')

/-- What a call leaves in a target that holds `cur` before the pieces are printed, and how it ends;
`entangled` is the outcome of the troublesome case. -/
inductive Fills (dates : DateSyntax) (env : DateEnv) (entangled : Directive → JStr → JStr × Option Err) :
    List Piece → List Arg → JStr → JStr × Res Unit → Prop
  | done (args : List Arg) (cur : JStr) : Fills dates env entangled [] args cur (cur, .ok ())
  | lit {s : JStr} {ps : List Piece} {args : List Arg} {cur : JStr} {r : JStr × Res Unit}
      (h : Fills dates env entangled ps args (cur ++ s) r) : Fills dates env entangled (.lit s :: ps) args cur r
  | percent {ps : List Piece} {args : List Arg} {cur : JStr} {r : JStr × Res Unit}
      (h : Fills dates env entangled ps args (cur ++ js! "%") r) :
      Fills dates env entangled (.percent :: ps) args cur r
  /-- The target under `%s` or `%S`: what it holds by now is appended to it. -/
  | self {d : Directive} (hc : d.conv = ch! 's' ∨ d.conv = ch! 'S') {cur : JStr} (he : ¬ Entangled d cur)
      {ps : List Piece} {args : List Arg} {r : JStr × Res Unit}
      (h : Fills dates env entangled ps args (cur ++ shownText d cur) r) :
      Fills dates env entangled (.dir d :: ps) (.target :: args) cur r
  | selfPadded {d : Directive} {cur : JStr} (he : Entangled d cur) {ps : List Piece} {args : List Arg}
      {st : JStr} (hs : entangled d cur = (st, none)) {r : JStr × Res Unit}
      (h : Fills dates env entangled ps args st r) :
      Fills dates env entangled (.dir d :: ps) (.target :: args) cur r
  | selfFails {d : Directive} {cur : JStr} (he : Entangled d cur) {ps : List Piece} {args : List Arg}
      {st : JStr} {e : Err} (hs : entangled d cur = (st, some e)) :
      Fills dates env entangled (.dir d :: ps) (.target :: args) cur (st, .error e)
  /-- Another argument: what it prints on its own is appended. -/
  | other {d : Directive} {t : Traits} {s : JStr} (ht : printf dates env d.text [t] = .ok s)
      {ps : List Piece} {args : List Arg} {cur : JStr} {r : JStr × Res Unit}
      (h : Fills dates env entangled ps args (cur ++ s) r) :
      Fills dates env entangled (.dir d :: ps) (.other t :: args) cur r
  | fails {d : Directive} {t : Traits} {e : Err} (ht : printf dates env d.text [t] = .error e)
      {ps : List Piece} {args : List Arg} {cur : JStr} :
      Fills dates env entangled (.dir d :: ps) (.other t :: args) cur (cur, .error e)
  | missing {d : Directive} {ps : List Piece} {cur : JStr} :
      Fills dates env entangled (.dir d :: ps) [] cur (cur, .error (.printf (.missingArgument (shownConv d.conv))))

/-- In a `StringBuilder` the padding is part of the text by the time it is copied: the whole content, padding
included, appears twice. -/
def twice (d : Directive) (cur : JStr) : JStr × Option Err :=
  (cur ++ leading d cur ++ (cur ++ leading d cur), none)

/-- In a `StringBuffer` the call fails after writing the padding. -/
def stuck (d : Directive) (cur : JStr) : JStr × Option Err := (cur ++ leading d cur, some .illegalState)

end FastPrintf.Spec
