import Verif.Model.Text

/-!
# Input streams

`std::istream` over a text: the content, the position, and the eof and fail bits. Not in /repo; this is what
the standard says about the operations that the xsdir classes use (libstdc++ follows it).
-/

namespace ACE
open Text

/-- A stream. -/
structure IStream where
  content : Str
  pos : Nat
  eof : Bool
  fail : Bool
deriving DecidableEq, Repr

namespace IStream

/-- A stream at the start of a text. -/
def ofText (content : Str) : IStream := ⟨content, 0, false, false⟩

/-- `good()`. -/
def good (st : IStream) : Bool := !st.eof && !st.fail

/-- `tellg()`: `none` stands for -1. The sentry sets the fail bit of a stream that is not good. -/
def tellg (st : IStream) : Option Nat × IStream :=
  if st.good then (some st.pos, st) else (none, { st with fail := true })

/-- `seekg( position )`: clears the eof bit, and fails for -1 and behind the end. -/
def seekg (st : IStream) (position : Option Nat) : IStream :=
  if st.fail then { st with eof := false }
  else match position with
    | some p => if p ≤ st.content.length then { st with pos := p, eof := false }
      else { st with eof := false, fail := true }
    | none => { st with eof := false, fail := true }

/-- `clear()`. -/
def clear (st : IStream) : IStream := { st with eof := false, fail := false }

/-- `setstate( failbit )`. -/
def setFail (st : IStream) : IStream := { st with fail := true }

/-- `std::getline( st, current )`: the new content of `current`, which is left alone when the stream is not
good. The eof bit is set when the end is found before a newline, and the fail bit as well when there are no
characters at all. -/
def getline (current : Str) (st : IStream) : Str × IStream :=
  if !st.good then (current, { st with fail := true })
  else
    let rest := st.content.drop st.pos
    let line := rest.takeWhile (· != newline)
    if rest = [] then ([], { st with eof := true, fail := true })
    else if line.length = rest.length then (line, { st with pos := st.content.length, eof := true })
    else (line, { st with pos := st.pos + line.length + 1 })

end IStream
end ACE
