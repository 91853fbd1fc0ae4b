import Verif.Spec.Padded
import Verif.Spec.Ranges
import Verif.Spec.Calls
import Verif.Spec.Braces
import Verif.Lemmas.Padded3
import Verif.Model.RangeArgs
/-
Lines with lists, sets, maps and tuples among other values.
-/
namespace Scn.Spec

/-- `text` shows the value `v` of a collection, if what follows it satisfies the condition; with the elements in `{}` or `{:…}`. Elements of
    ranges and members of tuples have any whitespace around them (in front of one only if it does not keep whitespace and has no fill and no
    precision); they are
    followed by something they cannot be confused with, and do not begin like the closing bracket. -/
inductive CollShows (e : Enc) : Coll → Option Written → CollVal → List Nat → (List Nat → Prop) → Prop where
  | item {d : Dest} {v : Val} {text : List Nat} {follow : List Nat → Prop} (ws : List Nat) (h : Shows e d v text follow) (hty : IntType d)
      (hws : Spaces ws) (hsk : ws ≠ [] → skipsSpaces d = true) : CollShows e (.item d) none (.val v) (ws ++ text) follow
  | written {d : Dest} {v : Val} {text : List Nat} {follow : List Nat → Prop} (ws : List Nat) (w : Written) (hws : Spaces ws)
      (hsk : ws ≠ [] → w.side = .unspecified ∧ w.field.precision = 0 ∧ keepsSpace d = false) (hw : w.Readable e d.argTy []) (hl : w.localized = false)
      (h : ShownAs e w.field w.letter d v text follow) :
      CollShows e (.item d) (some w) (.val v) (ws ++ w.field.pad (rightByDefault d w.letter) text)
        (fun tail => w.field.Clear (rightByDefault d w.letter) (keepsSpace d) text follow tail)
  | range {el : Coll} {w : Option Written} (o c n : Nat) (hb : (o, c) = (91, 93) ∨ (o, c) = (123, 125)) (lead gap : List Nat) (hlead : Spaces lead)
      (hgap : Spaces gap) (xs : List (Item CollVal)) (hn : xs.length ≤ n) (hx : ∀ x ∈ xs, CollShows e el w x.val x.text x.follow)
      (hafter : ∀ x ∈ xs, Spaces x.after) (hstart : ∀ x ∈ xs, StartsUnlike [c] x.text) (hf : ∀ rest, ItemsFollow [44] xs ([c] ++ rest)) :
      CollShows e (.range ⟨[o], [c], [44]⟩ n el) w (.list (xs.map fun x => x.val)) (lead ++ ([o] ++ (itemsText [44] gap xs ++ [c]))) (fun _ => True)
  | tuple (lead gap : List Nat) (hlead : Spaces lead) (hgap : Spaces gap) (ms : List (Coll × Item CollVal))
      (hx : ∀ m ∈ ms, CollShows e m.1 none m.2.val m.2.text m.2.follow) (hafter : ∀ m ∈ ms, Spaces m.2.after)
      (hf : ∀ rest, ItemsFollow [44] (ms.map Prod.snd) ([41] ++ rest)) :
      CollShows e (.tuple .tuple (ms.map Prod.fst)) none (.list (ms.map fun m => m.2.val))
        (lead ++ ([40] ++ (itemsText [44] gap (ms.map Prod.snd) ++ [41]))) (fun _ => True)
  | entry {kc vc : Coll} (lead : List Nat) (hlead : Spaces lead) (k v : Item CollVal) (hk : CollShows e kc none k.val k.text k.follow)
      (hv : CollShows e vc none v.val v.text v.follow) (hka : Spaces k.after) (hva : Spaces v.after)
      (hstart : ∃ c r, k.text = c :: r ∧ isSpace c = false) :
      CollShows e (.tuple .mapEntry [kc, vc]) none (.list [k.val, v.val]) (lead ++ (k.text ++ (k.after ++ ([58] ++ (v.text ++ v.after)))))
        (fun rest => rest.dropWhile isSpace ≠ [] ∧ ItemsFollow [58] [k, v] rest)

/-- `text` shows what is added to a range that holds `init`, to give `v`; or the new value of a tuple. -/
def ListShows (e : Enc) (c : Coll) (w : Option Written) (init : List CollVal) (v : CollVal) (text : List Nat) : Prop :=
  ∃ vs, CollShows e c w (.list vs) text (fun _ => True) ∧
    match c with
    | .item _ => False
    | .range _ _ _ => v = .list (init ++ vs)
    | .tuple b _ => b = .tuple ∧ v = .list vs

/-- The elements of a range, or those of its elements if they are ranges, and so on, are of the type `d`. -/
inductive InnerType : Coll → Dest → Prop where
  | item (d : Dest) : InnerType (.item d) d
  | range (b : Brackets) (n : Nat) {el : Coll} {d : Dest} (h : InnerType el d) : InnerType (.range b n el) d

/-- A part of a line: literal text, and a value in `{}` or `{:…}` as in C91, or a list. -/
inductive ListPart where
  | value (x : PrintedField)
  | list (gap : List Nat) (c : Coll) (w : Option Written) (init : List CollVal) (v : CollVal) (text : List Nat)

/-- The literal text before the field. -/
def ListPart.gap : ListPart → List Nat
  | .value x => x.gap
  | .list gap _ _ _ _ _ => gap

/-- What is printed for the field. -/
def ListPart.shown : ListPart → List Nat
  | .value x => x.shown
  | .list _ _ _ _ _ text => text

/-- The argument of the call. -/
def ListPart.arg : ListPart → Dest ⊕ (Coll × List CollVal)
  | .value x => .inl x.dest
  | .list _ c _ init _ _ => .inr (c, init)

/-- The value that is read. -/
def ListPart.val : ListPart → Val ⊕ CollVal
  | .value x => .inl x.val
  | .list _ _ _ _ v _ => .inr v

/-- The specification of the field. -/
def ListPart.spec (e : Enc) : ListPart → Option (List Nat)
  | .value x => x.spec.map fun w => w.render e
  | .list _ _ w _ _ _ => w.map fun w => w.render e

/-- The line: the literal texts and what is shown in turn, then `tail`. -/
def listLine (ps : List ListPart) (tail : List Nat) : List Nat := ps.flatMap (fun p => p.gap ++ p.shown) ++ tail

/-- The format string: the literal texts with their braces doubled, and `{}`, `{:…}`, `{id}` or `{id:…}` for the fields. -/
def listFormat (e : Enc) (auto : Bool) (xs : List (Nat × ListPart)) (last : List Nat) : List Nat :=
  xs.flatMap (fun x => doubled (encodes e x.2.gap) ++
    123 :: ((if auto then [] else numeral 10 x.1) ++ (match x.2.spec e with | none => [] | some t => 58 :: t) ++ [125])) ++
  doubled (encodes e last)

/-- What follows a value cannot be confused with it; anything may follow a list. -/
def ListClear : List ListPart → List Nat → Prop
  | [], _ => True
  | .value x :: ps, tail => x.Clear (listLine ps tail) ∧ ListClear ps tail
  | .list _ _ _ _ _ _ :: ps, tail => ListClear ps tail

end Scn.Spec
