import Verif.Model.Readers
/-
A scan call over a source that is not contiguous: how `default_arg_reader`, `arg_reader` and the skipping of whitespace
are given the source, /repo/src/scn/impl.cpp:1748-1788, /repo/src/scn/impl.h:5891-5932 and 6158-6234.
-/
namespace Scn

/-- `default_arg_reader::operator()` on a source that is not contiguous, /repo/src/scn/impl.h:5908-5932, with the number
    of units in the current segment when it is taken for the whole source (`is_segment_contiguous`, 979-1010): then
    nothing else is read. -/
def windowRead {V : Type} (e : Enc) (rd : Reader V) (lay : List Nat → Layout) (win : List Nat → Option Nat) (s : List Nat) :
    Res (V × List Nat) :=
  match win s with
  | none => defaultRead e rd lay s
  | some k => (defaultRead e rd (fun _ => .contiguous) (s.take k)).map fun r => (r.1, s.drop ((s.take k).length - r.2.length))

/-- A scan call over a source that is not contiguous, /repo/src/scn/impl.cpp:1748-1788: `lay` tells how the source is
    presented from each position on, `win` how much of it fields without specifications see (both by what remains
    there). The readers of fields with specifications are given the range itself, /repo/src/scn/impl.h:6224-6234. There
    are no custom arguments. -/
def bufEnv (e wide : Enc) (cfg : RegexCfg) (loc : LocaleData) (old : Nat) (lay : List Nat → Layout) (win : List Nat → Option Nat)
    (ds : List Dest) : Env Val where
  enc := e
  cfg := cfg
  skip s := readWhileSpace e (lay s) s
  count := ds.length
  ty id := ((ds[id]?).map Dest.argTy).getD .none
  readDefault id s :=
    match ds[id]? with
    | none => .ub
    | some d => windowRead e (d.defaultReader e wide) lay win s
  readSpecs id sp s :=
    match ds[id]? with
    | none => .ub
    | some d => d.readSpecs e wide loc old sp lay s
  readCustom _ pos _ := (pos, .ub)

end Scn
