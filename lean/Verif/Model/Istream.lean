import Verif.Model.Basic
/-
Model of `basic_range_streambuf` and `basic_istream_scanner`, /repo/include/scn/istream.h:57-209.

The stream buffer has no get area, so that `sgetc`, `sbumpc`, `sungetc` and `sputbackc` of
`std::basic_streambuf` call the virtual functions each time. `operator>>` is represented by what it does with
the stream buffer (`Extractor`); `showmanyc` only observes and is left out. No character is the end-of-file
value.
-/
namespace Scn

/-- `basic_range_streambuf`, /repo/include/scn/istream.h:63-148: `m_begin` and `m_begin_prev` (what is left
    from there on), `m_ch` (`none` is `eof`), `m_has_put_back`. -/
structure StreamBuf where
  begin : List Nat
  prev : List Nat
  ch : Option Nat
  hasPutBack : Bool
  deriving DecidableEq, Repr

/-- The constructor, /repo/include/scn/istream.h:74-77. -/
def StreamBuf.init (src : List Nat) : StreamBuf := ⟨src, src, none, false⟩

/-- `underflow`, /repo/include/scn/istream.h:95-110. -/
def StreamBuf.underflow (b : StreamBuf) : StreamBuf × Option Nat :=
  match b.ch with
  | some c => (b, some c)
  | none =>
    match b.begin with
    | [] => (b, none)
    | c :: cs => ({ b with prev := c :: cs, begin := cs, ch := some c }, some c)

/-- `uflow`, /repo/include/scn/istream.h:112-119. -/
def StreamBuf.uflow (b : StreamBuf) : StreamBuf × Option Nat :=
  match b.underflow.2 with
  | none => b.underflow
  | some c => ({ b.underflow.1 with ch := none }, some c)

/-- `pbackfail`, /repo/include/scn/istream.h:126-138, with `c` (`none` is `eof`): whether it reports
    success; `none` is a violated `SCN_EXPECT`. -/
def StreamBuf.pbackfail (b : StreamBuf) (c : Option Nat) : Option (StreamBuf × Bool) :=
  if c ≠ none then none
  else if b.hasPutBack then none
  else some ({ b with hasPutBack := true, begin := b.prev }, decide (b.prev ≠ []))

/-- What an `operator>>` does: peek at (`sgetc`), get (`sbumpc`), unget (`sungetc`) or put back
    (`sputbackc`) a character, depending on what it saw, and end with a value or with a failed stream
    (`stream.eof()`, `stream.bad()`), as observed at /repo/include/scn/istream.h:181-203. -/
inductive Extractor (α : Type) where
  | done (a : α)
  | fail (eof bad : Bool)
  | peek (k : Option Nat → Extractor α)
  | get (k : Option Nat → Extractor α)
  | unget (k : Bool → Extractor α)
  | putback (c : Nat) (k : Bool → Extractor α)

/-- The error for a failed stream, /repo/include/scn/istream.h:187-201. -/
def streamError (eof bad : Bool) : Err :=
  if eof then .endOfInput else if bad then .invalidSourceState else .invalidScannedValue

/-- `stream >> val` on a stream buffer, /repo/include/scn/istream.h:183-201. -/
def Extractor.run {α : Type} : Extractor α → StreamBuf → Res (α × StreamBuf)
  | .done a, b => .ok (a, b)
  | .fail eof bad, _ => .err (streamError eof bad)
  | .peek k, b => (k b.underflow.2).run b.underflow.1
  | .get k, b => (k b.uflow.2).run b.uflow.1
  | .unget k, b =>
    match b.pbackfail none with
    | none => .ub
    | some r => (k r.2).run r.1
  | .putback c k, b =>
    match b.pbackfail (some c) with
    | none => .ub
    | some r => (k r.2).run r.1

/-- `basic_istream_scanner::scan`, /repo/include/scn/istream.h:178-208: the value and the new position. -/
def istreamScan {α : Type} (x : Extractor α) (src : List Nat) : Res (α × List Nat) :=
  (x.run (StreamBuf.init src)).map fun r => (r.1, if r.2.ch = none then r.2.begin else r.2.prev)

end Scn
