import Verif.Lemmas.Padded2
import Verif.Props.Calls
/-
Reading back records of values printed with padding.
-/
namespace Scn
open Spec

/-- The value of the field is shown as the field says. -/
def Spec.PrintedField.Ok (e : Enc) (x : PrintedField) : Prop :=
  match x.spec with
  | none => Shows e x.dest x.val x.text x.follow
  | some w => w.render e ≠ [] ∧ w.Readable e x.dest.argTy [] ∧ w.localized = false ∧ ShownAs e w.field w.letter x.dest x.val x.text x.follow

theorem shownAs_not_custom {e : Enc} {F : PaddedField} {letter : Option Nat} {d : Dest} {v : Val} {text : List Nat} {follow : List Nat → Prop}
    (h : ShownAs e F letter d v text follow) : d.argTy ≠ .custom := by
  cases h with
  | int T ty letter b uo x hT hty => rintro (h : ty = _); subst h; simp [ArgTy.category] at hty
  | float letter ty p cv seg round hcv hty => rintro (h : ty = _); subst h; simp [ArgTy.category] at hty
  | word => cases e <;> simp [Dest.argTy]
  | filled => cases e <;> simp [Dest.argTy]
  | _ => simp [Dest.argTy]

/-- The fields of the format string, with the readers of the call. -/
def recordFields (env : Env Val) (e : Enc) : Nat → List PrintedField → List (CallField Val)
  | _, [] => []
  | i, x :: es =>
    ⟨encodes e x.gap, i, x.spec.map fun w => w.render e,
      match x.spec with | none => env.readDefault i | some w => env.readSpecs i (w.specs e)⟩ :: recordFields env e (i + 1) es

theorem recordFormat_eq (env : Env Val) (e : Enc) (es : List PrintedField) (last : List Nat) (i : Nat) :
    recordFormat e es last = callFormat true (recordFields env e i es) (encodes e last) := by
  induction es generalizing i with
  | nil => rfl
  | cons x es ih =>
    have ih := ih (i + 1)
    unfold recordFormat callFormat at ih ⊢
    rw [recordFields, List.flatMap_cons, List.flatMap_cons, List.append_assoc, List.append_assoc, ih]
    unfold CallField.text
    cases x.spec <;> simp

theorem recordFields_ids (env : Env Val) (e : Enc) (es : List PrintedField) (i : Nat) :
    (recordFields env e i es).map (fun f => f.id) = List.range' i es.length := by
  induction es generalizing i with
  | nil => rfl
  | cons x es ih => rw [recordFields, List.map_cons, ih, List.length_cons, List.range'_succ]

theorem recordFields_mem {env : Env Val} {e : Enc} {es : List PrintedField} {i : Nat} {f : CallField Val} (h : f ∈ recordFields env e i es) :
    ∃ j x, es[j]? = some x ∧ f = ⟨encodes e x.gap, i + j, x.spec.map fun w => w.render e,
      match x.spec with | none => env.readDefault (i + j) | some w => env.readSpecs (i + j) (w.specs e)⟩ := by
  induction es generalizing i with
  | nil => cases h
  | cons x es ih =>
    rw [recordFields] at h
    rcases List.mem_cons.1 h with rfl | h
    · exact ⟨0, x, rfl, rfl⟩
    · obtain ⟨j, y, h1, h2⟩ := ih h
      refine ⟨j + 1, y, h1, ?_⟩
      rw [h2, show i + 1 + j = i + (j + 1) by omega]

theorem printedRecord_cons (x : PrintedField) (es : List PrintedField) (tail : List Nat) :
    printedRecord (x :: es) tail = x.gap ++ (x.shown ++ printedRecord es tail) := by simp [printedRecord]

theorem pad_scalar {e : Enc} {w : Written} {ty : ArgTy} (hw : w.Readable e ty []) (right : Bool) {text : List Nat} (ht : ∀ c ∈ text, IsScalar c) :
    ∀ c ∈ w.field.pad right text, IsScalar c := by
  have hfsc : IsScalar w.field.fill := (describes_written hw).scalar
  have h32 : IsScalar 32 := ⟨by omega, by omega⟩
  have hr : ∀ n f, IsScalar f → ∀ c ∈ List.replicate n f, IsScalar c := fun n f hf c hc => by rw [List.eq_of_mem_replicate hc]; exact hf
  intro c hc
  unfold PaddedField.pad PaddedField.fills at hc
  simp only [List.mem_append] at hc
  rcases hc with hc | hc | hc
  · split at hc
    · exact hr _ _ hfsc c hc
    · cases hc
    · exact hr _ _ hfsc c hc
    · split at hc
      · exact hr _ _ h32 c hc
      · cases hc
  · exact ht c hc
  · split at hc
    · cases hc
    · exact hr _ _ hfsc c hc
    · exact hr _ _ hfsc c hc
    · split at hc
      · cases hc
      · exact hr _ _ h32 c hc

theorem printedField_scalar {e : Enc} (loc : LocaleData) {x : PrintedField} (h : x.Ok e) : ∀ c ∈ x.shown, IsScalar c := by
  unfold PrintedField.Ok at h
  unfold PrintedField.shown
  cases hs : x.spec with
  | none => rw [hs] at h; exact (shows_text h).1
  | some w =>
    rw [hs] at h
    exact pad_scalar h.2.1 _ (shownAs_facts e e loc 0 h.2.1 h.2.2.1 h.2.2.2).1

theorem printedRecord_scalar {e : Enc} (loc : LocaleData) (es : List PrintedField) (tail : List Nat) (hok : ∀ x ∈ es, x.Ok e)
    (hg : ∀ x ∈ es, ∀ c ∈ x.gap, Simple e c) (ht : ∀ c ∈ tail, IsScalar c) : ∀ c ∈ printedRecord es tail, IsScalar c := by
  intro c hc
  rcases List.mem_append.1 hc with h | h
  · obtain ⟨x, hx, h⟩ := List.mem_flatMap.1 h
    rcases List.mem_append.1 h with h | h
    · exact (hg x hx c h).1
    · exact printedField_scalar loc (hok x hx) c h
  · exact ht c h

theorem paddedRecord_run (e wide : Enc) (cfg : RegexCfg) (loc : LocaleData) (old : Nat) (ds : List Dest) (last rest : List Nat)
    (hlast : ∀ c ∈ last, Simple e c) (hrest : ∀ c ∈ rest, IsScalar c) (hend : EndsInText last) (es : List PrintedField) :
    ∀ i, (∀ j x, es[j]? = some x → ds[i + j]? = some x.dest) → (∀ x ∈ es, x.Ok e) →
      (∀ x ∈ es, ∀ c ∈ x.gap, Simple e c) → (∀ x ∈ es, EndsInText x.gap ∨ ∃ c r, x.shown = c :: r ∧ isSpace c = false) → AllClear es (last ++ rest) →
      inOrder (litStep (stdEnv e wide cfg loc old ds)) (recordFields (stdEnv e wide cfg loc old ds) e i es) (encodes e last)
        (encodes e (printedRecord es (last ++ rest))) =
      .ok (numberedFrom i (es.map fun x => x.val), encodes e rest) := by
  have hlr : ∀ c ∈ last ++ rest, IsScalar c := by
    intro c hc
    rcases List.mem_append.1 hc with h | h
    · exact (hlast c h).1
    · exact hrest c h
  induction es with
  | nil =>
    intro i _ _ _ _ _
    simp only [recordFields, inOrder, printedRecord, List.flatMap_nil, List.nil_append]
    rw [litStep_self e wide cfg loc old ds last rest hlast hrest (Or.inl hend)]
    rfl
  | cons x es ih =>
    intro i hds hok hg hgap hclear
    have hx := hok x (by simp)
    have hpr := printedRecord_scalar loc es (last ++ rest) (fun y hy => hok y (by simp [hy])) (fun y hy => hg y (by simp [hy])) hlr
    have hsx := printedField_scalar loc hx
    have hdx : ds[i]? = some x.dest := hds 0 x rfl
    rw [printedRecord_cons]
    simp only [recordFields, inOrder]
    rw [litStep_self e wide cfg loc old ds x.gap _ (hg x (by simp)) (by
        intro c hc
        rcases List.mem_append.1 hc with h | h
        · exact hsx c h
        · exact hpr c h) ((hgap x (by simp)).imp_right (by rintro ⟨c, r, h1, h2⟩; exact ⟨c, r ++ printedRecord es (last ++ rest), by rw [h1]; rfl, h2⟩)), Res.bind_ok]
    have hread : (match x.spec with | none => (stdEnv e wide cfg loc old ds).readDefault i | some w => (stdEnv e wide cfg loc old ds).readSpecs i (w.specs e))
        (encodes e (x.shown ++ printedRecord es (last ++ rest))) = .ok (x.val, encodes e (printedRecord es (last ++ rest))) := by
      have hcx := hclear.1
      unfold PrintedField.Clear at hcx
      unfold PrintedField.Ok at hx
      unfold PrintedField.shown
      cases hs : x.spec with
      | none =>
        rw [hs] at hcx hx
        show (match ds[i]? with | none => Res.ub | some d => defaultRead e (d.defaultReader e wide) (fun _ => .contiguous) _) = _
        rw [hdx]
        exact shows_read e wide hx _ hpr hcx
      | some w =>
        rw [hs] at hcx hx
        show (match ds[i]? with | none => Res.ub | some d => d.readSpecs e wide loc old (w.specs e) (fun _ => .contiguous) _) = _
        rw [hdx]
        exact shownAs_read loc old hx.2.1 hx.2.2.1 hx.2.2.2 hcx hpr (fun _ => .contiguous) (fun t _ => by cases e <;> trivial)
    rw [hread, Res.bind_ok]
    dsimp only
    rw [ih (i + 1) (by
        intro j y hj
        have := hds (j + 1) y hj
        rwa [show i + 1 + j = i + (j + 1) by omega]) (fun y hy => hok y (by simp [hy])) (fun y hy => hg y (by simp [hy]))
        (fun y hy => hgap y (by simp [hy])) hclear.2]
    rfl

end Scn
