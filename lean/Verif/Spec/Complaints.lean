/-
What the `PrintfException`s say.
-/
import Verif.Spec.Semantics
import Verif.Spec.Text

namespace FastPrintf.Spec

/-- How an object shows itself in a message; an array is shown by its class and hash code. -/
inductive OwnText (exc : JStr) (id : Identity) : Res JStr → JStr → Prop
  | array {hex : JStr} (h : id.className.head? = some (ch! '[')) (hx : Shortest 16 id.hash.toNat hex)
      (t : Res JStr) : OwnText exc id t (id.className ++ js! "@" ++ hex)
  | shows (h : id.className.head? ≠ some (ch! '[')) (s : JStr) : OwnText exc id (.ok s) s
  | throws {hex : JStr} (h : id.className.head? ≠ some (ch! '[')) (hx : Shortest 16 id.hash.toNat hex) (e : Err) :
      OwnText exc id (.error e) (js! "<" ++ id.className ++ js! "@" ++ hex ++ js! " threw " ++ exc ++ js! ">")

/-- The message about a refused argument.  `exc` is the class of an exception thrown by `toString()`, `cause` the text
of the `DateTimeException`, `slot` that of the `RefSlot`. -/
inductive Says (jdk : JdkEnv) (exc cause slot : JStr) : Entry → Refusal → JStr → Prop
  | nullToInt : Says jdk exc cause slot (.ref .null) .nullToInt (js! "null cannot be converted to int")
  | nullToFloat : Says jdk exc cause slot (.ref .null) .nullToFloat (js! "null cannot be converted to float")
  | nullToTemporal :
      Says jdk exc cause slot (.ref .null) .nullToTemporal (js! "null cannot be converted to TemporalAccessor")
  | textToInt {e : Entry} {s : JStr} (h : HoldsText e s) :
      Says jdk exc cause slot e .textToInt (js! "Cannot convert \"" ++ s ++ js! "\" to int")
  | textToFloat {e : Entry} {s : JStr} (h : HoldsText e s) :
      Says jdk exc cause slot e .textToFloat (js! "Cannot convert \"" ++ s ++ js! "\" to float")
  | emptyToChar {e : Entry} (h : HoldsText e []) :
      Says jdk exc cause slot e .emptyToChar (js! "Empty string cannot be converted to char")
  /-- the exception is named in brackets; it is not the cause -/
  | noEpochSeconds (t : Temporal) {text : Res JStr} {id : Identity} {s : JStr} (h : OwnText exc id text s) :
      Says jdk exc cause slot (.ref (.temporal t text id)) .noEpochSeconds
        (js! "Can't get epoch seconds from: " ++ s ++ js! " [" ++ cause ++ js! "]")
  | noEpochMillis (t : Temporal) {text : Res JStr} {id : Identity} {s : JStr} (h : OwnText exc id text s) :
      Says jdk exc cause slot (.ref (.temporal t text id)) .noEpochMillis
        (js! "Can't get epoch milliseconds from: " ++ s ++ js! " [" ++ cause ++ js! "]")
  | temporalToChar (t : Temporal) (text : Res JStr) (id : Identity) :
      Says jdk exc cause slot (.ref (.temporal t text id)) .temporalToChar (js! "Can't convert TemporalAccessor to char")
  | notANumber {text : Res JStr} {id : Identity} {s : JStr} (h : OwnText exc id text s) :
      Says jdk exc cause slot (.ref (.object .other text id)) .notANumber (s ++ js! " is not a number")
  | objectToTemporal {text : Res JStr} {id : Identity} {s : JStr} (h : OwnText exc id text s) :
      Says jdk exc cause slot (.ref (.object .other text id)) .objectToTemporal
        (s ++ js! " cannot be converted to TemporalAccessor")
  | objectToInt {text : Res JStr} {id : Identity} {s : JStr} (h : OwnText exc id text s) :
      Says jdk exc cause slot (.ref (.object .other text id)) .objectToInt (s ++ js! " cannot be converted to int")
  | charToTemporal {c : BitVec 16} {e : Entry} (h : (Integral.char c).Given e) :
      Says jdk exc cause slot e .charToTemporal (js! "Cannot convert Character to TemporalAccessor")
  /-- the slot is shown, not the argument -/
  | noTemporal (e : Entry) :
      Says jdk exc cause slot e .noTemporal (js! "Cannot convert [" ++ slot ++ js! "] to TemporalAccessor")
  | negativeUnsigned {e : Entry} {v : Int} (h : WholeReading jdk e (.ok (.big v))) (hv : v < 0) {s : JStr}
      (hs : DecimalText v s) : Says jdk exc cause slot e .negativeUnsigned
        (js! "Negative BigInteger(" ++ s ++ js! ") cannot be converted to unsigned")
  /-- without the sign -/
  | bigDecimalHex {e : Entry} {u scale : Int} (h : RealReading jdk e (.ok (.big u scale))) :
      Says jdk exc cause slot e .bigDecimalHex
        (js! "hexLayout not supported for BigDecimal: " ++ jdk.bigDecimalToString |u| scale)

end FastPrintf.Spec
