import Verif.Lemmas.Chrono11
import Verif.Props.Chrono
/-
C56: the parser of chrono formats and the format string.
-/
namespace Scn
open Spec

/-- Whatever handler the parser is given, provided that the handler itself is well-defined, parsing a well-formed format
    whose last character is one code unit (the closing brace, say) reads only units of the format and comes to an end
    inside it. Missing: formats that end with a character of several code units (`C56_violated_end`) and malformed
    ones. -/
theorem C56_inside_partial {σ : Type} (e : Enc) (h : ChronoHandler σ) (hh : ∀ st x, h.call st x ≠ none) (st : σ) (cps : List Nat)
    (hs : ∀ c ∈ cps, IsScalar c) (hlast : ∀ c, cps.getLast? = some c → (encode e c).length = 1) :
    ∃ st' p, parseChrono e h st (encodes e cps) = some (st', p) ∧ p <:+ encodes e cps :=
  parse_total e h hh st _ (formatCalls_wellFormed e cps hs hlast)

/-- `%Y年%m}` -/
example : ∃ st' p, parseChrono .utf8 (checkHandler false .tm) {} (encodes .utf8 [37, 89, 0x5E74, 37, 109, 125]) = some (st', p) ∧
    p <:+ encodes .utf8 [37, 89, 0x5E74, 37, 109, 125] :=
  C56_inside_partial .utf8 _ (check_total false .tm) {} _ (by decide) (by decide)

/-- The same for any format, well-formed or not, without characters of several code units: in a wide (UTF-32) format,
    for all formats. -/
theorem C56_inside_single_partial {σ : Type} (e : Enc) (h : ChronoHandler σ) (hh : ∀ st x, h.call st x ≠ none) (st : σ) (fmt : List Nat)
    (hs : ∀ c ∈ fmt, cpLength e c ≤ 1) : ∃ st' p, parseChrono e h st fmt = some (st', p) ∧ p <:+ fmt :=
  parse_total e h hh st _ (formatCalls_single e fmt hs)

example : ∃ st' p, parseChrono .utf32 (checkHandler false .tm) {} [37, 89, 0x5E74, 0xFFFFFFFF, 37] = some (st', p) ∧ p <:+ [37, 89, 0x5E74, 0xFFFFFFFF, 37] :=
  C56_inside_single_partial .utf32 _ (check_total false .tm) {} _ (by decide)

/-- For the check of the format in `scanner::parse`: it ends, and the format is the part that is kept and the part that
    is left. -/
theorem C56_check_partial (e : Enc) (gmtoff : Bool) (k : TmKind) (cps : List Nat)
    (hs : ∀ c ∈ cps, IsScalar c) (hlast : ∀ c, cps.getLast? = some c → (encode e c).length = 1) :
    chronoParse e gmtoff k (encodes e cps) ≠ .ub ∧ ∀ f p, chronoParse e gmtoff k (encodes e cps) = .ok (f, p) → encodes e cps = f ++ p :=
  ⟨chronoParse_defined (formatCalls_wellFormed e cps hs hlast), fun _ _ h => chronoParse_parts h⟩

example : chronoParse .utf8 false .tm (encodes .utf8 [37, 89, 0x5E74, 37, 109, 125]) ≠ .ub :=
  (C56_check_partial .utf8 false .tm _ (by decide) (by decide)).1

/-- An empty specification is rejected as an invalid format string, at once and for all three types: at the end of the
    format string and before a closing brace. -/
theorem C56_empty (cfg : ChronoCfg) (gmtoff : Bool) (k : TmKind) {T : Type} (set : TmSetter T) (t : T) (r src : List Nat) :
    chronoCustom cfg gmtoff k set t [] src = ([], .err .invalidFormatString) ∧
      chronoCustom cfg gmtoff k set t (125 :: r) src = (125 :: r, .err .invalidFormatString) :=
  ⟨rfl, rfl⟩

example : (chronoCustom ⟨.utf8, fun _ => .contiguous, fun _ _ => none, 46, fun _ => .ok (), fun _ _ => .err .invalidScannedValue⟩
    false .tm (tmSetter false) {} [125, 33] [49, 50]).2 = .err .invalidFormatString :=
  congrArg Prod.snd (C56_empty _ _ _ _ _ [33] _).2

/-- A format that ends with a literal character of several code units is read past its end, for every such
    character. -/
theorem C56_violated_end (e : Enc) (gmtoff : Bool) (k : TmKind) (cp : Nat) (hcp : IsScalar cp) (hsp : isSpace cp = false)
    (hm : (encode e cp).length > 1) : chronoParse e gmtoff k (37 :: 89 :: encode e cp) = .ub := by
  unfold chronoParse
  dsimp only
  rw [if_neg (by decide), check_Y]
  have := loop_multi e (checkHandler gmtoff k) ((encode e cp).length + 1) { st := { set := [.fullYear] } } [] hcp hsp hm []
  rw [List.append_nil] at this
  rw [this]

/-- `%Yé` -/
example : chronoParse .utf8 false .tm [37, 89, 0xC3, 0xA9] = .ub :=
  C56_violated_end .utf8 false .tm 0xE9 (by decide) (by decide) (by decide)

/-- A closing brace behind a literal character of several code units does not end the format: the next one does. -/
theorem C56_violated_brace (e : Enc) (gmtoff : Bool) (k : TmKind) (cp : Nat) (hcp : IsScalar cp) (hsp : isSpace cp = false)
    (hm : (encode e cp).length > 1) (r : List Nat) :
    chronoParse e gmtoff k (37 :: 89 :: (encode e cp ++ 125 :: 125 :: r)) = .ok (37 :: 89 :: (encode e cp ++ [125]), 125 :: r) := by
  have hk := loop_multi e (checkHandler gmtoff k) ((encode e cp ++ 125 :: 125 :: r).length + 1) { st := { set := [.fullYear] } } [] hcp hsp hm (125 :: 125 :: r)
  dsimp only at hk
  have hfin : chronoLoop e (checkHandler gmtoff k) ((encode e cp ++ 125 :: 125 :: r).length + 1) { st := { set := [.fullYear] } } ([] ++ encode e cp ++ [125]) (125 :: r) =
      some ({ st := { set := [.fullYear] } }, 125 :: r) := by
    rw [chronoLoop, if_pos rfl]
    unfold chronoFinish
    rw [if_neg (by simp)]
    rfl
  rw [hfin] at hk
  unfold chronoParse
  dsimp only
  rw [if_neg (by decide), check_Y, hk]
  dsimp only
  rw [if_neg (by decide)]
  have : (37 :: 89 :: (encode e cp ++ 125 :: 125 :: r)).take ((37 :: 89 :: (encode e cp ++ 125 :: 125 :: r)).length - (125 :: r).length) = 37 :: 89 :: (encode e cp ++ [125]) := by
    have h1 : 37 :: 89 :: (encode e cp ++ 125 :: 125 :: r) = (37 :: 89 :: (encode e cp ++ [125])) ++ 125 :: r := by simp
    rw [h1, List.length_append, Nat.add_sub_cancel, List.take_left]
  rw [this]

/-- `%Yé}}` -/
example : chronoParse .utf8 false .tm [37, 89, 0xC3, 0xA9, 125, 125] = .ok ([37, 89, 0xC3, 0xA9, 125], [125]) :=
  C56_violated_brace .utf8 false .tm 0xE9 (by decide) (by decide) (by decide) []

end Scn
