import Verif.Spec.Calendar
import Verif.Lemmas.Chrono16
/-
Calendar types: helper lemmas.
-/
namespace Scn
open Spec

theorem calendar_of_custom {cfg : ChronoCfg} {gmtoff : Bool} {k : CalKind} {pos src p : List Nat} {d : DateTime} {q : List Nat}
    (h : chronoCustom cfg gmtoff .components dtSetter {} pos src = (p, .ok (d, q))) :
    calendarCustom cfg gmtoff k pos src = (p, match k.value d with | none => .ub | some v => .ok (v, q)) := by
  obtain ⟨fmt, h1, h2⟩ := custom_parts h
  unfold calendarCustom calendarScan
  rw [h1]
  dsimp only
  rw [h2, Res.bind_ok]
  rfl

theorem custom_of_calendar {cfg : ChronoCfg} {gmtoff : Bool} {k : CalKind} {pos src p : List Nat} {v : CalVal} {q : List Nat}
    (h : calendarCustom cfg gmtoff k pos src = (p, .ok (v, q))) :
    ∃ d, chronoCustom cfg gmtoff .components dtSetter {} pos src = (p, .ok (d, q)) ∧ k.value d = some v := by
  unfold calendarCustom calendarScan at h
  unfold chronoCustom
  split at h
  · cases h
  · cases h
  · rename_i fmt p' hp
    rw [hp]
    dsimp only
    cases h' : chronoScan cfg dtSetter fmt {} src with
    | ub => rw [h'] at h; cases h
    | err e => rw [h'] at h; cases h
    | ok w =>
      rw [h', Res.bind_ok] at h
      split at h
      · cases h
      · rename_i v' hv
        simp only [Prod.mk.injEq, Res.ok.injEq] at h
        obtain ⟨rfl, rfl, rfl⟩ := h
        exact ⟨w.1, rfl, hv⟩

theorem uchar_small {v : Int} (h0 : 0 ≤ v) (h : v < 256) : toUChar v = v := by unfold toUChar; omega

theorem timePoint_of_custom {cfg : ChronoCfg} {gmtoff : Bool} (mktime : Tm → Int) (nanos : List Nat → Int) (num den : Nat) {pos src p : List Nat} {d : DateTime} {q : List Nat}
    (h : chronoCustom cfg gmtoff .components dtSetter {} pos src = (p, .ok (d, q))) :
    timePointCustom cfg gmtoff mktime nanos num den pos src =
      (p, match timeSinceEpoch gmtoff mktime nanos num den d with | none => .ub | some none => .err .invalidScannedValue | some (some v) => .ok (v, q)) := by
  obtain ⟨fmt, h1, h2⟩ := custom_parts h
  unfold timePointCustom timePointScan
  rw [h1]
  dsimp only
  rw [h2, Res.bind_ok]
  rfl

theorem custom_of_timePoint {cfg : ChronoCfg} {gmtoff : Bool} {mktime : Tm → Int} {nanos : List Nat → Int} {num den : Nat} {pos src p : List Nat} {v : Int} {q : List Nat}
    (h : timePointCustom cfg gmtoff mktime nanos num den pos src = (p, .ok (v, q))) :
    ∃ d, chronoCustom cfg gmtoff .components dtSetter {} pos src = (p, .ok (d, q)) ∧ timeSinceEpoch gmtoff mktime nanos num den d = some (some v) := by
  unfold timePointCustom timePointScan at h
  unfold chronoCustom
  split at h
  · cases h
  · cases h
  · rename_i fmt p' hp
    rw [hp]
    dsimp only
    cases h' : chronoScan cfg dtSetter fmt {} src with
    | ub => rw [h'] at h; cases h
    | err e => rw [h'] at h; cases h
    | ok w =>
      rw [h', Res.bind_ok] at h
      split at h
      · cases h
      · cases h
      · rename_i v' hv
        simp only [Prod.mk.injEq, Res.ok.injEq] at h
        obtain ⟨rfl, rfl, rfl⟩ := h
        exact ⟨w.1, rfl, hv⟩

theorem int64Op_some {v : Int} (h : -2 ^ 63 ≤ v ∧ v < 2 ^ 63) : int64Op v = some v := if_pos h

theorem durationCast_from {f num den : Nat} (hf : 0 < f) (hn0 : 0 < num) (hd : 0 < den) {v : Int} (h : -2 ^ 63 ≤ v * (den / Nat.gcd den (f * num) : Nat) ∧ v * (den / Nat.gcd den (f * num) : Nat) < 2 ^ 63) :
    durationCast 1 f num den v = some ((v * den).tdiv (f * num : Nat)) := by
  unfold durationCast
  simp only [Nat.one_mul]
  have hn : 0 < f * num := Nat.mul_pos hf hn0
  generalize f * num = num at hn h ⊢
  generalize hg : Nat.gcd den num = g at h ⊢
  obtain ⟨n, hn'⟩ : g ∣ den := hg ▸ Nat.gcd_dvd_left _ _
  obtain ⟨d, hd'⟩ : g ∣ num := hg ▸ Nat.gcd_dvd_right _ _
  have hgp : 0 < g := by rcases Nat.eq_zero_or_pos g with h0 | h0; (· subst h0; omega); exact h0
  have e1 : den / g = n := by rw [hn', Nat.mul_div_cancel_left _ hgp]
  have e2 : num / g = d := by rw [hd', Nat.mul_div_cancel_left _ hgp]
  have hnp : 0 < n := by rcases Nat.eq_zero_or_pos n with h0 | h0; (· subst h0; omega); exact h0
  have hdp : 0 < d := by rcases Nat.eq_zero_or_pos d with h0 | h0; (· subst h0; omega); exact h0
  rw [e1, e2]
  have hval : (v * (den : Int)).tdiv num = (v * (n : Int)).tdiv d := by
    rw [hn', hd', Int.natCast_mul, Int.natCast_mul, show v * ((g : Int) * n) = (g : Int) * (v * n) by rw [← Int.mul_assoc, Int.mul_comm v, Int.mul_assoc]]
    exact Int.mul_tdiv_mul_of_pos _ _ (by omega)
  rw [e1] at h
  have h1 : (if n = 1 then some v else int64Op (v * n)) = some (v * (n : Int)) := by
    split
    · rename_i h1; subst h1; simp
    · exact int64Op_some h
  rw [h1, hval]
  simp only [Option.map_some, Option.some.injEq]
  split
  · rename_i h1; subst h1; simp
  · rfl

/-- A product with a quotient by a factor is in range if the whole product is. -/
theorem reduced_fit {v : Int} {den g : Nat} (hg : g ∣ den) (hg0 : 0 < g) (h : -2 ^ 63 ≤ v * den ∧ v * den < 2 ^ 63) :
    -2 ^ 63 ≤ v * (den / g : Nat) ∧ v * (den / g : Nat) < 2 ^ 63 := by
  obtain ⟨n, hn'⟩ := hg
  rw [hn', Nat.mul_div_cancel_left _ hg0]
  have he : v * (den : Int) = v * n * g := by rw [hn', Int.natCast_mul, Int.mul_comm (g : Int), Int.mul_assoc]
  rw [he] at h
  have hg1 : (1 : Int) ≤ g := by omega
  rcases Int.le_total 0 (v * (n : Int)) with h0 | h0
  · have : v * (n : Int) * 1 ≤ v * n * g := Int.mul_le_mul_of_nonneg_left hg1 h0
    omega
  · have : v * n * g ≤ v * (n : Int) * 1 := Int.mul_le_mul_of_nonpos_left h0 hg1
    omega

theorem durationCast_seconds {num den : Nat} (hn : 0 < num) (hd : 0 < den) {v : Int} (h : -2 ^ 63 ≤ v * den ∧ v * den < 2 ^ 63) :
    durationCast 1 1 num den v = some ((v * den).tdiv num) := by
  rw [durationCast_from (by decide) hn hd (reduced_fit (Nat.gcd_dvd_left _ _) (Nat.gcd_pos_of_pos_left _ hd) h), Nat.one_mul]

theorem mon_bounds {c : Civil} (hv : c.Valid) : 0 ≤ (c.month : Int) - 1 ∧ (c.month : Int) - 1 ≤ 11 := by have := hv.month; omega

/-- The components of a date as a `std::tm`, and its time. -/
theorem mktime_set {mktime : Tm → Int} (hm : MktimeUtc mktime) (gmtoff : Bool) {fs : List ChronoField} {c : Civil} (hv : c.Valid)
    (hy : .fullYear ∈ fs) (hmon : .mon ∈ fs) :
    mktime ((setDateTime fs c {}).toTm gmtoff) = secondsSinceEpoch c.year c.month (if .mday ∈ fs then c.mday else 0)
      (if .hour24 ∈ fs ∨ .hour12 ∈ fs then hourOf fs c else 0) (if .min ∈ fs then c.minute else 0) (if .sec ∈ fs then c.second else 0) := by
  have h1 : ((setDateTime fs c {}).toTm gmtoff).mon = (c.month : Int) - 1 := by simp [DateTime.toTm, setDateTime, hmon]
  have h2 : ((setDateTime fs c {}).toTm gmtoff).year = (c.year : Int) - 1900 := by simp [DateTime.toTm, setDateTime, hy, yearOf]
  rw [hm _ (by rw [h1]; exact (mon_bounds hv).1) (by rw [h1]; exact (mon_bounds hv).2), h1, h2]
  have h3 : ((setDateTime fs c {}).toTm gmtoff).mday = if .mday ∈ fs then (c.mday : Int) else 0 := by
    simp only [DateTime.toTm, setDateTime]; split <;> rfl
  have h4 : ((setDateTime fs c {}).toTm gmtoff).hour = if .hour24 ∈ fs ∨ .hour12 ∈ fs then (hourOf fs c : Int) else 0 := by
    simp only [DateTime.toTm, setDateTime]; split <;> rfl
  have h5 : ((setDateTime fs c {}).toTm gmtoff).min = if .min ∈ fs then (c.minute : Int) else 0 := by
    simp only [DateTime.toTm, setDateTime]; split <;> rfl
  have h6 : ((setDateTime fs c {}).toTm gmtoff).sec = if .sec ∈ fs then (c.second : Int) else 0 := by
    simp only [DateTime.toTm, setDateTime]; split <;> rfl
  rw [h3, h4, h5, h6, show (c.year : Int) - 1900 + 1900 = c.year by omega, show (c.month : Int) - 1 + 1 = c.month by omega]

theorem time_set (gmtoff : Bool) (mktime : Tm → Int) (nanos : List Nat → Int) (num den : Nat) {fs : List ChronoField} {c : Civil}
    (hno : ∀ f ∈ fs, f ∉ notInTimePoints) :
    timeSinceEpoch gmtoff mktime nanos num den (setDateTime fs c {}) = (durationCast 1 1 num den (mktime ((setDateTime fs c {}).toTm gmtoff))).map some := by
  have h1 : .wday ∉ fs := fun h => hno _ h (by decide)
  have h2 : .yday ∉ fs := fun h => hno _ h (by decide)
  have h3 : .tzoff ∉ fs := fun h => hno _ h (by decide)
  unfold timeSinceEpoch
  rw [if_neg (by simp [setDateTime, h1, h2, h3])]
  dsimp only
  split
  · rename_i h; simp [setDateTime] at h
  · rfl

theorem seconds_2263 {c : Civil} (hv : c.Valid) (hy : 2263 ≤ c.year) {hh mm ss : Int} (h1 : 0 ≤ hh) (h2 : 0 ≤ mm) (h3 : 0 ≤ ss) :
    9223372037 ≤ secondsSinceEpoch c.year c.month c.mday hh mm ss := by
  have hd : 0 ≤ daysBefore c.year c.month := by
    have hm := hv.month
    unfold daysBefore
    have : ∀ m : Nat, m ≤ 12 → 0 ≤ ([0, 31, 59, 90, 120, 151, 181, 212, 243, 273, 304, 334] : List Int).getD ((m : Int) - 1).toNat 0 := by decide
    have := this c.month hm.2
    split <;> omega
  have := hv.mday
  unfold secondsSinceEpoch
  omega

end Scn
