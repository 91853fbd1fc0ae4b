/-
The guard that reads numbers in the classic C locale, where the C library has no conversions with a locale argument.
-/
namespace Scn

/-- The buffer `m_locbuf` after `strcpy`, /repo/src/scn/impl.h:1823-1829, 1846: the name, its terminator and the zeros behind it;
    `none` if the name does not fit, which is undefined. -/
def localeBuffer (name : List Nat) : Option (List Nat) :=
  if name.length < 64 then some (name ++ List.replicate (64 - name.length) 0) else none

/-- `setlocale(category, name)` as in /repo/src/scn/impl.h:1833, 1855: the locale of the category, if it exists; a name ends at the first
    zero. The locale of one category is modelled, as the guard is used with `LC_NUMERIC` only. -/
def setLocale (exists_ : List Nat → Bool) (name : List Nat) (cur : List Nat) : List Nat :=
  if exists_ (name.takeWhile (· != 0)) then name.takeWhile (· != 0) else cur

/-- A conversion with `set_clocale_classic_guard`, /repo/src/scn/impl.h:1823-1862, /repo/src/scn/impl.cpp:495-505, 533-543: the result, and
    the locale afterwards. `run` is the conversion with the name of the locale it is called in. -/
def withClassicLocale {A : Type} (exists_ : List Nat → Bool) (run : List Nat → A) (cur : List Nat) : Option (A × List Nat) :=
  (localeBuffer cur).map fun buf =>
    let classic := setLocale exists_ [67] cur
    (run classic, setLocale exists_ buf classic)

end Scn
