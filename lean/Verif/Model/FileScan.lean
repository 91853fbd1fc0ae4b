import Verif.Model.Buffer
import Verif.Model.VScan
/-
Model of scan calls on a `FILE`: the driver on a file buffer, then the synchronisation of the file,
/repo/src/scn/impl.cpp:1821-1947 (`vinput`, `vscan_impl` for buffers).
-/
namespace Scn

variable {V : Type}

/-- A scan call on a file whose buffer is accessible: the format string, the driver's environment (its readers work on the file's
    buffer), and, for each content of the file, the pieces in which `fill` delivers it (/repo/src/scn/impl.h:1149-1177) and the positions the
    readers look at (/repo/src/scn/impl.cpp:1742-1788). -/
structure FileCall (V : Type) where
  fmt : List Nat
  env : Env V
  cut : List Nat → List (List Nat)
  looked : List Nat → List Nat

/-- What a call reports and leaves: the error or nothing, the history, and what a following read of the file gets
    (/repo/src/scn/impl.cpp:1843-1862). -/
structure FileResult (V : Type) where
  error : Option Err
  events : List (Event V)
  file : List Nat

/-- `make_file_scan_buffer`, the constructor of `basic_scan_file_buffer`, /repo/src/scn/impl.h:1134-1148: nothing has been read yet. -/
def Buf.ofFile (pieces : List (List Nat)) : Buf := ⟨.buffered, [], [], pieces⟩

/-- `vscan_impl(scan_buffer&, …)`, /repo/src/scn/impl.cpp:1873-1879: `vscan_internal`, then `sync_after_vscan` (1843-1862). Here the buffer is one
    over a file, /repo/src/scn/impl.h:1134-1229. `cap` characters can be pushed back. `none` is undefined behaviour. -/
def scanFile (cap : Nat) (c : FileCall V) (file : List Nat) : Option (FileResult V) :=
  match (Buf.ofFile (c.cut file)).gets (c.looked file), vscan c.env c.fmt file with
  | some (b, _), some (.ok rest, evs) =>
    match syncAfter cap b (.ok (file.length - rest.length)) with
    | some (.ok _, left) => some ⟨none, evs, left⟩
    | some (.err e, left) => some ⟨some e, evs, left⟩
    | _ => none
  | some (b, _), some (.error e, evs) =>
    match syncAfter cap b (.err e) with
    | some (.err e, left) => some ⟨some e, evs, left⟩
    | _ => none
  | _, _ => none

/-- `vinput(format, args)`, /repo/src/scn/impl.cpp:1821-1839: a scan call on `stdin` through a buffer made for it. It has its own calls of
    `sync` and `sync_all`; no range is returned. -/
def vinput (cap : Nat) (c : FileCall V) (file : List Nat) : Option (FileResult V) :=
  match (Buf.ofFile (c.cut file)).gets (c.looked file), vscan c.env c.fmt file with
  | some (b, _), some (.ok rest, evs) => (b.sync cap (file.length - rest.length)).map fun x => ⟨if x.1 then none else some .invalidSourceState, evs, x.2⟩
  | some (b, _), some (.error e, evs) => (b.sync cap 0).map fun x => ⟨some (if x.1 then e else .invalidSourceState), evs, x.2⟩
  | _, _ => none

/-- Several calls on one file, one after the other, by a program that goes on after a failed call: each call gets what the one
    before it left in the file (/repo/src/scn/impl.cpp:1873-1879, repeatedly). -/
def scanFiles (cap : Nat) : List (FileCall V) → List Nat → Option (List (FileResult V))
  | [], _ => some []
  | c :: cs, file =>
    match scanFile cap c file with
    | none => none
    | some r => (scanFiles cap cs r.file).map (r :: ·)

end Scn
