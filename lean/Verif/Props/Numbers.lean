import Verif.Lemmas.Numbers
import Verif.Props.Chrono3
/-
C77: numbers in dates and times that are out of range or too short.
-/
namespace Scn
open Spec

/-- C77: a number out of its range is rejected, whatever the rest of the format and of the text is, into any destination. -/
theorem C77_out_of_range (cfg : ChronoCfg) (hl : GoodLayouts cfg.enc cfg.lay) (gmtoff : Bool) {x n lo hi v : Nat} (hx : (x, n, lo, hi) ∈ numberRanges)
    {ws t rest : List Nat} (ht : Digits 1 n v t fun u => u = rest) (hv : v < lo ∨ hi < v) (hw : Spaces ws) (hr : ∀ c ∈ rest, IsScalar c) (fmt : List Nat)
    (t0 : Tm) (t1 : TmWithTz) (t2 : DateTime) :
    chronoScan cfg (tmSetter gmtoff) (37 :: x :: fmt) t0 (encodes cfg.enc (ws ++ (t ++ rest))) = .err .invalidScannedValue ∧
      chronoScan cfg (tmTzSetter gmtoff) (37 :: x :: fmt) t1 (encodes cfg.enc (ws ++ (t ++ rest))) = .err .invalidScannedValue ∧
      chronoScan cfg dtSetter (37 :: x :: fmt) t2 (encodes cfg.enc (ws ++ (t ++ rest))) = .err .invalidScannedValue :=
  ⟨scan_out_of_range cfg hl _ (rejects_tmOn gmtoff _ _) t0 hx ht hv hw hr fmt, scan_out_of_range cfg hl _ (rejects_tmTz gmtoff) t1 hx ht hv hw hr fmt,
    scan_out_of_range cfg hl _ rejects_dt t2 hx ht hv hw hr fmt⟩

/-- `%I:%M` on `0:30`. -/
example : chronoScan exChrono (tmSetter false) [37, 73, 58, 37, 77] {} [48, 58, 51, 48] = .err .invalidScannedValue :=
  (C77_out_of_range exChrono exChrono_good false (x := 73) (n := 2) (lo := 1) (hi := 12) (by decide) (ws := []) (t := [48]) (rest := [58, 51, 48])
    { digits_one (n := 0) (hi := 1) (by decide) with follow := fun _ h => Or.inr (by subst h; intro c hc; cases hc; rw [isDigit10]; decide) } (v := 0) (by decide)
    (fun _ h => by cases h) (by decide) [58, 37, 77] {} {} {}).1

/-- C77: a number with fewer digits than its conversion needs, or none, is rejected likewise. -/
theorem C77_too_short (cfg : ChronoCfg) (hl : GoodLayouts cfg.enc cfg.lay) (gmtoff : Bool) {x n : Nat} (hx : (x, n) ∈ numberDigits)
    {ws t rest : List Nat} (ht : ∀ c ∈ t, IsDigit 10 c) (hlt : t.length < n) (hn : NoDigitFirst 10 rest) (hw : Spaces ws) (hne : t ++ rest ≠ [])
    (hfirst : (t ++ rest).dropWhile isSpace = t ++ rest) (hr : ∀ c ∈ rest, IsScalar c) (fmt : List Nat) (t0 : Tm) (t1 : TmWithTz) (t2 : DateTime) :
    chronoScan cfg (tmSetter gmtoff) (37 :: x :: fmt) t0 (encodes cfg.enc (ws ++ (t ++ rest))) = .err .invalidScannedValue ∧
      chronoScan cfg (tmTzSetter gmtoff) (37 :: x :: fmt) t1 (encodes cfg.enc (ws ++ (t ++ rest))) = .err .invalidScannedValue ∧
      chronoScan cfg dtSetter (37 :: x :: fmt) t2 (encodes cfg.enc (ws ++ (t ++ rest))) = .err .invalidScannedValue :=
  ⟨scan_few_digits cfg hl _ (keepsErr_tmOn gmtoff _ _) t0 hx ht hlt hn hw hne hfirst hr fmt, scan_few_digits cfg hl _ (keepsErr_tmTz gmtoff) t1 hx ht hlt hn hw hne hfirst hr fmt,
    scan_few_digits cfg hl _ keepsErr_dt t2 hx ht hlt hn hw hne hfirst hr fmt⟩

/-- `%Y-%m` on `987-12`. -/
example : chronoScan exChrono dtSetter [37, 89, 45, 37, 109] {} [57, 56, 55, 45, 49, 50] = .err .invalidScannedValue :=
  (C77_too_short exChrono exChrono_good false (x := 89) (n := 4) (by decide) (ws := []) (t := [57, 56, 55]) (rest := [45, 49, 50])
    (by intro c hc; rw [isDigit10]; revert c; decide) (by decide) (by intro c hc; cases hc; rw [isDigit10]; decide) (fun _ h => by cases h) (by decide)
    (by decide) (by decide) [45, 37, 109] {} {} {}).2.2

end Scn
