import Verif.Spec.Chrono
/-
The modifiers `E` and `O`, which ask for the other representation of a locale.
-/
namespace Scn.Spec

/-- The same conversion without a modifier. -/
def unmodifiedCall : ChronoCall → ChronoCall
  | .fullYear _ => .fullYear .standard | .shortYear _ => .shortYear .standard | .century _ => .century .standard
  | .decMonth _ => .decMonth .standard | .dayOfMonth _ => .dayOfMonth .standard | .dec0Weekday _ => .dec0Weekday .standard
  | .hour24 _ => .hour24 .standard | .hour12 _ => .hour12 .standard | .minute _ => .minute .standard | .second _ => .second .standard
  | .locDatetime _ => .locDatetime .standard | .locDate _ => .locDate .standard | .locTime _ => .locTime .standard
  | x => x

/-- A part of a format without its modifier, if it has one. The offset from UTC keeps it: there it is for another text, in
    every locale. -/
def unmodified : FmtItem → FmtItem
  | .conv [m, x] c => if x = 122 then .conv [m, x] c else .conv [x] (unmodifiedCall c)
  | i => i

end Scn.Spec
