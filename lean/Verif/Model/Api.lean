import Verif.Model.VScan
import Verif.Model.Sources
/-
What `scn::scan` and `scn::scan_value` return.
-/
namespace Scn
variable {V : Type}

/-- `scan_result`, /repo/include/scn/scan.h:6378-6428, 6433-6484: the tuple of values and the unused range. -/
structure ScanResult (V : Type) where
  range : Source
  values : List V
deriving DecidableEq, Repr

/-- The values of the result object: those it was made with (/repo/include/scn/scan.h:9671-9683), where the readers have stored theirs through
    the argument pointers (`make_scan_args(result->values())`, 9707-9709; 6118-6126), in this order. -/
def storeAll (init : List V) (evs : List (Event V)) : List V :=
  evs.foldl (fun vs ev => match ev with | .visit id _ (.ok (v, _)) => vs.set id v | _ => vs) init

/-- `vscan_generic` with `fill_scan_result`, /repo/include/scn/scan.h:9417-9429, 9655-9664: after an error the result holds only the
    error; otherwise the range is put behind what was consumed (6710-6726). -/
def fillResult (src : Source) (init : List V) : Option (Except Err (List Nat) × List (Event V)) → Option (Except Err (ScanResult V))
  | none => none
  | some (.error e, _) => some (.error e)
  | some (.ok rest, evs) => some (.ok ⟨src.unused (src.scanned.length - rest.length), storeAll init evs⟩)

/-- `scan(source, format, initial_args)`, /repo/include/scn/scan.h:9697-9742; without `initial_args` the values are value-initialized. The
    readers in `env` are those for the source's kind and encoding. -/
def scanCall (env : Env V) (src : Source) (fmt : List Nat) (init : List V) : Option (Except Err (ScanResult V)) :=
  fillResult src init (vscan env fmt src.scanned)

/-- `scan_value(source, initial_value)`, /repo/include/scn/scan.h:9810-9840, with `vscan_value_generic` (9457-9470): the default reader. -/
def scanValueCall (env : Env V) (src : Source) (init : V) : Option (Except Err (ScanResult V)) :=
  fillResult src [init]
    (match scanSimple env src.scanned with
     | .ub => none
     | .err e => some (.error e, [.visit 0 src.scanned (.err e)])
     | .ok (v, rest) => some (.ok rest, [.visit 0 src.scanned (.ok (v, rest))]))

end Scn
