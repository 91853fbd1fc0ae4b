import Verif.Model.IntReader
import Verif.Model.Space
/-
Model of `scn::scan_int`, /repo/include/scn/scan.h:9888-9914.
-/
namespace Scn

/-- `reader_impl_for_int<char>::read_default_with_base` on a contiguous narrow range, /repo/src/scn/impl.h:3539-3573. It is the
    general reader without the refusal of a minus sign by specification and without thousands separators. -/
def readWithBase (T : IntTy) (base : Nat) (s : List Nat) : Res (Int × List Nat) :=
  readInt ⟨true, true⟩ T ⟨base, false, none⟩ s

/-- `scan_int(source, base)`, /repo/include/scn/scan.h:9899-9914, with `scan_int_impl`, /repo/src/scn/impl.cpp:1799-1808: the value and the
    unused rest. -/
def scanIntFn (T : IntTy) (base : Nat) (source : List Nat) : Res (Int × List Nat) :=
  (skipSpace .utf8 .contiguous false source).bind fun beg => readWithBase T base beg

end Scn
