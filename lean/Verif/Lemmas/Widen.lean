import Verif.Lemmas.Calls2
import Verif.Lemmas.Defined5
import Verif.Lemmas.Discard
import Verif.Lemmas.Renumber
import Verif.Lemmas.AnyEncoding
import Verif.Spec.Widen
/-
Helper lemmas: reading integers of wider types.
-/
namespace Scn
open Spec

/-- `a` is `b`, limited to the values in `P`. -/
def Limits {V A : Type} (P : V → Prop) (a b : Res (V × A)) : Prop := ∀ q, a = .ok q ↔ b = .ok q ∧ P q.1

theorem Limits.bind {V A B : Type} {P : V → Prop} {a b : Res (V × A)} (h : Limits P a b) {f : V × A → Res (V × B)}
    (hf : ∀ q q', f q = .ok q' → q'.1 = q.1) : Limits P (a.bind f) (b.bind f) := by
  intro q'
  constructor
  · intro hq
    cases a with
    | ub => cases hq
    | err x => cases hq
    | ok q =>
      obtain ⟨h1, h2⟩ := (h q).1 rfl
      rw [h1]
      exact ⟨hq, by rw [hf q q' hq]; exact h2⟩
  · rintro ⟨hq, hp⟩
    cases b with
    | ub => cases hq
    | err x => cases hq
    | ok q =>
      have hq1 : f q = .ok q' := hq
      rw [(h q).2 ⟨rfl, by rw [← hf q q' hq1]; exact hp⟩]
      exact hq

theorem Limits.after {V A B : Type} {P : V → Prop} {x : Res A} {f g : A → Res (V × B)} (h : ∀ y, x = .ok y → Limits P (f y) (g y)) :
    Limits P (x.bind f) (x.bind g) := by
  cases x with
  | ub => intro q; exact ⟨fun h => (by cases h), fun h => (by cases h.1)⟩
  | err x => intro q; exact ⟨fun h => (by cases h), fun h => (by cases h.1)⟩
  | ok y => exact h y rfl

theorem Limits.err {V A : Type} (P : V → Prop) (x : Err) : Limits P (.err x : Res (V × A)) (.err x) :=
  fun _ => ⟨fun h => (by cases h), fun h => (by cases h.1)⟩

theorem Limits.refl {V A : Type} {P : V → Prop} {a : Res (V × A)} (h : ∀ v, P v) : Limits P a a := fun _ => ⟨fun h1 => ⟨h1, h _⟩, fun h1 => h1.1⟩

theorem Limits.mapRest {V A B : Type} {P : V → Prop} {a b : Res (V × A)} (h : Limits P a b) {g : V × A → V × B} (hg : ∀ q, (g q).1 = q.1) :
    Limits P (a.map g) (b.map g) := by
  have := h.bind (f := fun q => .ok (g q)) (fun q q' h => by cases h; exact hg q)
  cases a <;> cases b <;> exact this

theorem Limits.map {V W A : Type} {P : V → Prop} {Q : W → Prop} {a b : Res (V × A)} (h : Limits P a b) {f : V → W} (hf : ∀ v, Q (f v) ↔ P v) :
    Limits Q (a.map fun r => (f r.1, r.2)) (b.map fun r => (f r.1, r.2)) := by
  intro q'
  constructor
  · intro hq
    cases a with
    | ub => cases hq
    | err x => cases hq
    | ok q =>
      obtain ⟨h1, h2⟩ := (h q).1 rfl
      cases hq
      rw [h1]
      exact ⟨rfl, (hf _).2 h2⟩
  · rintro ⟨hq, hp⟩
    cases b with
    | ub => cases hq
    | err x => cases hq
    | ok q =>
      cases hq
      rw [(h q).2 ⟨rfl, (hf _).1 hp⟩]
      rfl

theorem inRange_wider {T T' : IntTy} (hs : T.signed = T'.signed) (hb : T.bits ≤ T'.bits) {x : Int} (h : InRange T x) : InRange T' x := by
  unfold InRange at h ⊢
  have h1 : (2 : Int) ^ (T.bits - 1) ≤ 2 ^ (T'.bits - 1) := by exact_mod_cast Nat.pow_le_pow_right (n := 2) (by decide) (Nat.sub_le_sub_right hb 1)
  have h2 : (2 : Int) ^ T.bits ≤ 2 ^ T'.bits := by exact_mod_cast Nat.pow_le_pow_right (n := 2) (by decide) hb
  rw [← hs]
  split
  · rename_i hx; rw [if_pos hx] at h; omega
  · rename_i hx; rw [if_neg hx] at h; omega

theorem scanDigitsW_limits {T T' : IntTy} (hT : T.Std) (hT' : T'.Std) (hs : T.signed = T'.signed) (hb : T.bits ≤ T'.bits) (neg : Bool) (hn : neg = true → T.signed = true)
    {b : Nat} (h2 : 2 ≤ b) (h36 : b ≤ 36) (s : List Nat) : Limits (InRange T) (scanDigitsW T neg b s) (scanDigitsW T' neg b s) := by
  by_cases h64 : T.bits = 64
  · have : T' = T := by
      have : T'.bits = 64 := by unfold IntTy.Std at hT'; omega
      cases T; cases T'; simp_all
    subst this
    intro q
    refine ⟨fun h => ⟨h, ?_⟩, fun h => h.1⟩
    unfold scanDigitsW at h
    split at h
    · cases h
    · split at h
      · rename_i hr; cases h; exact hr
      · split at h
        · rename_i hw; cases h; exact hw.2.2
        · cases h
  · have h32 : T.bits = 8 ∨ T.bits = 16 ∨ T.bits = 32 := by unfold IntTy.Std at hT; omega
    have hgood := scanDigitsW_good T hT neg b hn h2 h36 (good_upto32 T h32 b h2 h36 neg) s
    intro q
    constructor
    · intro h
      rw [hgood] at h
      unfold scanDigits at h
      unfold scanDigitsW
      split at h
      · cases h
      · rename_i hne
        rw [if_neg hne]
        split at h
        · rename_i hr
          rw [if_pos (inRange_wider hs hb hr)]
          exact ⟨h, by cases h; exact hr⟩
        · cases h
    · rintro ⟨h, hr⟩
      have hgood' := hgood
      unfold scanDigitsW at h hgood' ⊢
      unfold scanDigits at hgood'
      split at h
      · cases h
      · rename_i hne
        rw [if_neg hne] at hgood' ⊢
        rw [if_neg hne] at hgood'
        split at h
        · cases h; rw [if_pos hr]
        · rename_i hout
          split at h
          · rename_i hw
            cases h
            have hnot : ¬ InRange T (signed neg (value b (digitRun b s))) := fun hx => hout (inRange_wider hs hb hx)
            rw [if_neg hnot, if_neg hnot, if_pos ⟨hw.1, hw.2.1, hr⟩] at hgood'
            cases hgood'
          · cases h

theorem parseIntegerValue_limits {T T' : IntTy} (hT : T.Std) (hT' : T'.Std) (hs : T.signed = T'.signed) (hb : T.bits ≤ T'.bits) {narrow : Bool} {sign : Sign}
    (hn : T.signed = false → sign = .plus) {b : Nat} (h2 : 2 ≤ b) (h36 : b ≤ 36) {s : List Nat} (hne : s ≠ []) (hbytes : narrow = true → ∀ c ∈ s, c < 256) :
    Limits (InRange T) (parseIntegerValue narrow T sign b s) (parseIntegerValue narrow T' sign b s) := by
  rw [scanDigitsW_eq narrow T hT sign b h2 h36 hn s hne hbytes, scanDigitsW_eq narrow T' hT' sign b h2 h36 (by rw [← hs]; exact hn) s hne hbytes]
  refine scanDigitsW_limits hT hT' hs hb _ (fun h => ?_) h2 h36 s
  cases hx : T.signed with
  | true => rfl
  | false => rw [hn hx] at h; cases h

theorem thsepLoop_mem (sep base : Nat) : ∀ (s : List Nat) (c : Nat), c ∈ (thsepLoop sep base s).2.1 → c ∈ s := by
  intro s
  induction s with
  | nil => intro c h; exact h
  | cons a s ih =>
    intro c h
    unfold thsepLoop at h
    split at h
    · exact List.mem_cons_of_mem _ (ih c h)
    · split at h
      · cases h
      · rcases List.mem_cons.1 h with rfl | h
        · exact List.mem_cons_self ..
        · exact List.mem_cons_of_mem _ (ih c h)

theorem inRange_zero (T : IntTy) : InRange T 0 := by
  unfold InRange
  split
  · have : (0 : Int) < 2 ^ (T.bits - 1) := Int.pow_pos (by decide)
    omega
  · have : (0 : Int) < 2 ^ T.bits := Int.pow_pos (by decide)
    omega

theorem readInt_limits {T T' : IntTy} (hT : T.Std) (hT' : T'.Std) (hs : T.signed = T'.signed) (hb : T.bits ≤ T'.bits) (k : Src) (sp : IntSpecs)
    (hbase : sp.base = 0 ∨ (2 ≤ sp.base ∧ sp.base ≤ 36)) {s : List Nat} (hbytes : k.narrow = true → ∀ c ∈ s, c < 256) :
    Limits (InRange T) (readInt k T sp s) (readInt k T' sp s) := by
  unfold readInt
  cases hp : parseIntegerPrefix k s sp.base with
  | none => exact Limits.err _ _
  | some p =>
    obtain ⟨hsuf, hb36⟩ := parseIntegerPrefix_suffix hp
    obtain ⟨h2, h36⟩ := hb36 hbase
    dsimp only
    rw [← hs]
    split
    · exact Limits.err _ _
    · rename_i hneg
      have hn : T.signed = false → p.sign = .plus := by
        intro h
        cases hsg : p.sign with
        | plus => rfl
        | minus => exact absurd ⟨hsg, Or.inl h⟩ hneg
      split
      · intro q
        refine ⟨fun h => ⟨h, ?_⟩, fun h => h.1⟩
        cases h; exact inRange_zero T
      · split
        · refine Limits.after fun buf hbuf => Limits.bind (parseIntegerValue_limits hT hT' hs hb hn h2 h36 ?_ ?_) fun q q' h => ?_
          · unfold digitsWithoutThsep at hbuf
            split at hbuf
            · split at hbuf
              · cases hbuf
              · rename_i hne; cases hbuf; exact hne
            · split at hbuf
              · cases hbuf
              · rename_i hne; cases hbuf; exact hne
          · intro hnar c hc
            refine hbytes hnar c (hsuf.subset ?_)
            unfold digitsWithoutThsep at hbuf
            split at hbuf
            · split at hbuf
              · cases hbuf
              · cases hbuf; exact hc
            · split at hbuf
              · cases hbuf
              · cases hbuf; exact (List.takeWhile_prefix _).subset hc
          · cases h; rfl
        · rename_i sep _
          split
          · exact Limits.err _ _
          · rename_i hne
            refine Limits.bind (parseIntegerValue_limits hT hT' hs hb hn h2 h36 hne fun hnar c hc => hbytes hnar c (hsuf.subset (thsepLoop_mem _ _ _ _ hc))) fun q q' h => ?_
            cases h; rfl

theorem argRead_limits {V : Type} {P : V → Prop} {e : Enc} {sp : Specs} (hfill : sp.fill.units e ≠ []) {rd rd' : Reader V} (hsk : rd'.skipWs = rd.skipWs)
    (hrd : ∀ l s, UnitsOk e s → Limits P (rd.read l s) (rd'.read l s)) (lay : List Nat → Layout) {s : List Nat} (hu : UnitsOk e s) :
    Limits P (argRead e sp rd lay s) (argRead e sp rd' lay s) := by
  unfold argRead
  rw [hsk]
  refine Limits.after fun b hb => ?_
  have hu' : UnitsOk e b.1 := hu.suffix ((argBefore_within hfill rd.skipWs (lay s) s hu).2 b.1 b.2 hb).1
  have hv : Limits P (argValue e sp rd (lay b.1) b.2 b.1) (argValue e sp rd' (lay b.1) b.2 b.1) := by
    unfold argValue
    split
    · split
      · exact Limits.err _ _
      · exact (hrd (.segmented 0) (takeWidth e ((sp.precision : Int) - b.2) b.1) (fun he c hc => hu' he c ((takeWidth_prefix _ _ _).subset hc))).mapRest fun _ => rfl
    · exact (hrd (lay b.1) b.1 hu').mapRest fun _ => rfl
  refine hv.bind fun q q' h => ?_
  cases ha : argAfter e sp rd.skipWs (lay q.2.1) b.2 q.2.2 q.2.1 with
  | ub => rw [ha] at h; cases h
  | err x => rw [ha] at h; cases h
  | ok a =>
    rw [ha, Res.bind_ok] at h
    cases hc : checkWidths sp (b.2 + q.2.2 + a.2) with
    | ub => rw [hc] at h; cases h
    | err x => rw [hc] at h; cases h
    | ok c => rw [hc] at h; cases h; rfl

/-- The values that fit a destination. -/
def FitsDest (d : Dest) (v : Val) : Prop := ∀ T ty x, d = .int T ty → v = .int x → InRange T x

theorem fitsDest_int (T : IntTy) (ty : ArgTy) (x : Int) : FitsDest (.int T ty) (.int x) ↔ InRange T x :=
  ⟨fun h => h T ty x rfl rfl, fun h T' ty' x' h1 h2 => by cases h1; cases h2; exact h⟩

theorem widened_cases {d d' : Dest} (h : Widened d d') : (d' = d ∧ ∀ v, FitsDest d v) ∨
    ∃ T ty T' ty', d = .int T ty ∧ d' = .int T' ty' ∧ T.Std ∧ T'.Std ∧ T.signed = T'.signed ∧ T.bits ≤ T'.bits ∧
      (ty.category = some .integer ∨ ty.category = some .unsignedInteger) ∧ (ty'.category = some .integer ∨ ty'.category = some .unsignedInteger) := by
  cases d with
  | int T ty =>
    obtain ⟨T', ty', h1, h2⟩ := h
    exact Or.inr ⟨T, ty, T', ty', rfl, h1, h2⟩
  | _ => exact Or.inl ⟨h, fun v T ty x h1 => by cases h1⟩

theorem runTypeCheck_integers {ty : ArgTy} (h : ty.category = some .integer ∨ ty.category = some .unsignedInteger) (sp : Specs) :
    runTypeCheck ty sp = some (checkInt sp) := by
  cases ty <;> first | rfl | (rcases h with h | h <;> cases h)

theorem srcOf_narrow {e : Enc} {l : Layout} {s : List Nat} (hu : UnitsOk e s) : (srcOf e l).narrow = true → ∀ c ∈ s, c < 256 :=
  fun h => hu (of_decide_eq_true h)

theorem readSpecs_limits {d d' : Dest} (h : Widened d d') {e wide : Enc} {loc : LocaleData} {old : Nat} {sp : Specs} (hfill : sp.fill.units e ≠ [])
    (lay : List Nat → Layout) {s : List Nat} (hu : UnitsOk e s) : Limits (FitsDest d) (d.readSpecs e wide loc old sp lay s) (d'.readSpecs e wide loc old sp lay s) := by
  rcases widened_cases h with ⟨rfl, h⟩ | ⟨T, ty, T', ty', rfl, rfl, h1, h2, h3, h4, h5, h6⟩
  · exact Limits.refl h
  · unfold Dest.readSpecs
    rw [show runTypeCheck (Dest.int T ty).argTy sp = _ from runTypeCheck_integers h5 sp, show runTypeCheck (Dest.int T' ty').argTy sp = _ from runTypeCheck_integers h6 sp]
    cases checkInt sp with
    | false => exact Limits.err _ _
    | true =>
      show Limits _ (argRead e sp ((intSpecsReader e loc T sp).mapVal Val.int) lay s) (argRead e sp ((intSpecsReader e loc T' sp).mapVal Val.int) lay s)
      rw [argRead_mapVal, argRead_mapVal]
      refine Limits.map (argRead_limits (rd := intSpecsReader e loc T sp) (rd' := intSpecsReader e loc T' sp) hfill rfl (fun l t ht => ?_) lay hu) (fitsDest_int T ty)
      unfold intSpecsReader
      dsimp only
      split
      · exact fun q => ⟨fun h => (by cases h), fun h => (by cases h.1)⟩
      · rename_i b hb
        exact readInt_limits h1 h2 h3 h4 _ _ (getBase_range hb) (srcOf_narrow ht)

theorem defaultRead_limits {d d' : Dest} (h : Widened d d') {e wide : Enc} (lay : List Nat → Layout) {s : List Nat} (hu : UnitsOk e s) :
    Limits (FitsDest d) (defaultRead e (d.defaultReader e wide) lay s) (defaultRead e (d'.defaultReader e wide) lay s) := by
  rcases widened_cases h with ⟨rfl, h⟩ | ⟨T, ty, T', ty', rfl, rfl, h1, h2, h3, h4, h5, h6⟩
  · exact Limits.refl h
  · have hrd : ∀ l t, UnitsOk e t → Limits (FitsDest (.int T ty)) (((Dest.int T ty).defaultReader e wide).read l t) (((Dest.int T' ty').defaultReader e wide).read l t) :=
      fun l t ht => Limits.map (readInt_limits h1 h2 h3 h4 (srcOf e l) ⟨10, false, none⟩ (Or.inr (by decide)) (srcOf_narrow ht)) (fitsDest_int T ty)
    unfold defaultRead
    split
    · exact Limits.err _ _
    · show Limits _ ((skipSpace e (lay s) false s).bind _) ((skipSpace e (lay s) false s).bind _)
      exact Limits.after fun t ht => hrd _ _ (hu.suffix (skipSpace_suffix ht))

/-! ### Calls -/

/-- A field: its literal text has no braces, and its specification is accepted. -/
structure Spec.CommonField.Fine (e : Enc) (ds : List Dest) (x : CommonField) : Prop where
  gap : ∀ c ∈ x.gap, IsScalar c ∧ c ≠ 123 ∧ c ≠ 125
  spec : ∀ w, x.spec = some w → w.render e ≠ [] ∧ ∀ d, ds[x.id]? = some d → w.Readable e d.argTy []

/-- The field with what it reads. -/
def fieldWith (env : Env Val) (x : CommonField) : CallField Val :=
  ⟨encodes env.enc x.gap, x.id, x.spec.map (Written.render env.enc),
    match x.spec with | none => env.readDefault x.id | some w => env.readSpecs x.id (w.specs env.enc)⟩

theorem callFormat_with (auto : Bool) (env : Env Val) (xs : List CommonField) (last : List Nat) :
    callFormat auto (xs.map (CommonField.written env.enc)) last = callFormat auto (xs.map (fieldWith env)) last := by
  unfold callFormat
  rw [List.flatMap_map, List.flatMap_map]
  rfl

theorem fieldWith_means {e wide : Enc} {cfg : RegexCfg} {loc : LocaleData} {old : Nat} {ds : List Dest} (hc : ∀ d ∈ ds, d.argTy ≠ .custom) {x : CommonField}
    (hx : x.Fine e ds) (hid : x.id < ds.length) : FieldMeans (stdEnv e wide cfg loc old ds) (fieldWith (stdEnv e wide cfg loc old ds) x) ∧
      NoBrace (fieldWith (stdEnv e wide cfg loc old ds) x).gap := by
  refine ⟨?_, encodes_noBrace (fun c h => (hx.gap c h).1) fun c h => ?_⟩
  · have hd : ds[x.id]? = some ds[x.id] := List.getElem?_eq_getElem hid
    have hty := std_argTy (e := e) (wide := wide) (cfg := cfg) (loc := loc) (old := old) hd
    unfold fieldWith
    cases hs : x.spec with
    | none => unfold FieldMeans; rfl
    | some w =>
      obtain ⟨h1, h2⟩ := hx.spec w hs
      exact fieldMeans_written (env := stdEnv e wide cfg loc old ds) (w := w) h1 (id := x.id) (by rw [hty]; exact hc _ (List.getElem_mem hid))
        (by rw [hty]; exact h2 _ hd) _
  · obtain ⟨_, h1, h2⟩ := hx.gap c h
    simp [isBrace, h1, h2]

/-- What is known of the specifications written. -/
theorem written_accepted {e : Enc} {ty : ArgTy} {w : Written} (h : w.Readable e ty []) :
    ∃ (setter : Setter) (p : List Nat), parseSpecs ⟨false, false, false⟩ e ty ⟨{}, false⟩ (w.render e ++ [125]) = some (setter, p) ∧ setter.err = false ∧
      setter.specs = w.specs e := by
  obtain ⟨sp, h1, _, _, _, _, _, _, _, _, _, _, _, rfl⟩ := parseSpecs_written ⟨false, false, false⟩ e ty w [] h
  exact ⟨_, _, h1, rfl, rfl⟩

theorem std_default {e wide : Enc} {cfg : RegexCfg} {loc : LocaleData} {old : Nat} {ds : List Dest} {id : Nat} {d : Dest} (h : ds[id]? = some d) (s : List Nat) :
    (stdEnv e wide cfg loc old ds).readDefault id s = defaultRead e (d.defaultReader e wide) (fun _ => .contiguous) s := by
  show (match ds[id]? with | none => Res.ub | some d => _) = _
  rw [h]

theorem std_specs {e wide : Enc} {cfg : RegexCfg} {loc : LocaleData} {old : Nat} {ds : List Dest} {id : Nat} {d : Dest} (h : ds[id]? = some d) (sp : Specs) (s : List Nat) :
    (stdEnv e wide cfg loc old ds).readSpecs id sp s = d.readSpecs e wide loc old sp (fun _ => .contiguous) s := by
  show (match ds[id]? with | none => Res.ub | some d => _) = _
  rw [h]

theorem field_limits {e wide : Enc} {cfg : RegexCfg} {loc : LocaleData} {old : Nat} {ds ds' : List Dest} (hw : AllWidened ds ds') (ht : ∀ d ∈ ds, d.Tame e)
    {x : CommonField} (hx : x.Fine e ds) (hid : x.id < ds.length) {s : List Nat} (hu : UnitsOk e s) :
    Limits (fun v => Fits ds (x.id, v)) ((fieldWith (stdEnv e wide cfg loc old ds) x).read s) ((fieldWith (stdEnv e wide cfg loc old ds') x).read s) ∧
    ∀ v r, (fieldWith (stdEnv e wide cfg loc old ds) x).read s = .ok (v, r) → r <:+ s := by
  have hd : ds[x.id]? = some ds[x.id] := List.getElem?_eq_getElem hid
  obtain ⟨d', hd', hwd⟩ := hw.each _ _ hd
  have hfits : ∀ v, FitsDest ds[x.id] v ↔ Fits ds (x.id, v) := by
    intro v
    unfold FitsDest Fits
    dsimp only
    rw [hd]
    exact ⟨fun h T ty y h1 h2 => h T ty y (Option.some.inj h1) h2, fun h T ty y h1 h2 => h T ty y (congrArg some h1) h2⟩
  have hP : FitsDest ds[x.id] = fun v => Fits ds (x.id, v) := funext fun v => propext (hfits v)
  rw [← hP]
  have htame := ht _ (List.getElem_mem hid)
  unfold fieldWith
  cases hs : x.spec with
  | none =>
    dsimp only
    rw [std_default hd, std_default hd']
    exact ⟨defaultRead_limits hwd _ hu, (defaultRead_sound _ (defaultReader_sound e wide htame) _ s hu).2⟩
  | some w =>
    obtain ⟨setter, p, h1, h2, h3⟩ := written_accepted ((hx.spec w hs).2 _ hd)
    have hok := (parseSpecs_accepted h1 h2).ok
    rw [h3] at hok
    dsimp only
    rw [std_specs hd, std_specs hd']
    exact ⟨readSpecs_limits hwd hok.fill _ hu, (readSpecs_sound e wide loc old htame hok _ s hu).2⟩

theorem inOrder_limits {lit : List Nat → List Nat → Res (List Nat)} (hlit : ∀ t s r, lit t s = .ok r → r <:+ s) {U : List Nat → Prop} (hU : ∀ s t, U s → t <:+ s → U t)
    {P : Nat × Val → Prop} (F G : CommonField → CallField Val) (hFG : ∀ x, (F x).gap = (G x).gap ∧ (F x).id = x.id ∧ (G x).id = x.id) (last : List Nat) :
    ∀ (xs : List CommonField), (∀ x ∈ xs, ∀ s, U s → Limits (fun v => P (x.id, v)) ((F x).read s) ((G x).read s) ∧ ∀ v r, (F x).read s = .ok (v, r) → r <:+ s) →
    ∀ s, U s → ∀ q, inOrder lit (xs.map F) last s = .ok q ↔ inOrder lit (xs.map G) last s = .ok q ∧ ∀ p ∈ q.1, P p := by
  intro xs
  induction xs with
  | nil =>
    intro _ s _ q
    simp only [List.map_nil, inOrder]
    refine ⟨fun h => ⟨h, ?_⟩, fun h => h.1⟩
    cases hl : lit last s with
    | ok r => rw [hl] at h; cases h; intro p hp; cases hp
    | ub => rw [hl] at h; cases h
    | err y => rw [hl] at h; cases h
  | cons x xs ih =>
    intro hx s hs q
    obtain ⟨hg, hi, hi'⟩ := hFG x
    simp only [List.map_cons, inOrder]
    rw [hg, hi, hi']
    cases hl : lit (G x).gap s with
    | ub => exact ⟨fun h => (by cases h), fun h => (by cases h.1)⟩
    | err y => exact ⟨fun h => (by cases h), fun h => (by cases h.1)⟩
    | ok t =>
      simp only [Res.bind_ok]
      have hut := hU s t hs (hlit _ _ _ hl)
      obtain ⟨h1, h2⟩ := hx x (by simp) t hut
      constructor
      · intro h
        cases hr : (F x).read t with
        | ub => rw [hr] at h; cases h
        | err y => rw [hr] at h; cases h
        | ok r =>
          rw [hr, Res.bind_ok] at h
          obtain ⟨k1, k2⟩ := (h1 r).1 hr
          cases hq : inOrder lit (xs.map F) last r.2 with
          | ub => rw [hq] at h; cases h
          | err y => rw [hq] at h; cases h
          | ok q' =>
            obtain ⟨m1, m2⟩ := (ih (fun y hy => hx y (List.mem_cons_of_mem _ hy)) r.2 (hU t r.2 hut (h2 r.1 r.2 hr)) q').1 hq
            rw [hq] at h
            rw [k1, Res.bind_ok, m1]
            refine ⟨h, ?_⟩
            cases h
            intro p hp
            rcases List.mem_cons.1 hp with rfl | hp
            · exact k2
            · exact m2 p hp
      · rintro ⟨h, hp⟩
        cases hr : (G x).read t with
        | ub => rw [hr] at h; cases h
        | err y => rw [hr] at h; cases h
        | ok r =>
          rw [hr, Res.bind_ok] at h
          cases hq : inOrder lit (xs.map G) last r.2 with
          | ub => rw [hq] at h; cases h
          | err y => rw [hq] at h; cases h
          | ok q' =>
            rw [hq] at h
            have hh := h
            cases h
            have k1 := (h1 r).2 ⟨hr, hp _ (List.mem_cons_self ..)⟩
            rw [k1, Res.bind_ok, (ih (fun y hy => hx y (List.mem_cons_of_mem _ hy)) r.2 (hU t r.2 hut (h2 r.1 r.2 k1)) q').2
              ⟨hq, fun p hm => hp p (List.mem_cons_of_mem _ hm)⟩]
            exact hh

theorem fine_widened {e : Enc} {ds ds' : List Dest} (hw : AllWidened ds ds') {x : CommonField} (hx : x.Fine e ds) (hid : x.id < ds.length) : x.Fine e ds' := by
  refine ⟨hx.gap, fun w hs => ⟨(hx.spec w hs).1, fun d' hd' => ?_⟩⟩
  have hd : ds[x.id]? = some ds[x.id] := List.getElem?_eq_getElem hid
  obtain ⟨d2, hd2, hwd⟩ := hw.each _ _ hd
  rw [hd'] at hd2
  cases hd2
  have h := (hx.spec w hs).2 _ hd
  rcases widened_cases hwd with ⟨h1, _⟩ | ⟨T, ty, T', ty', h1, h2, _, _, _, _, _, h6⟩
  · rw [h1]; exact h
  · refine ⟨h.align, h.width, h.precision, fun _ => ?_, h.letter, h.follow⟩
    rw [h2]
    exact h6.imp_right Or.inl

theorem tame_widened {e : Enc} {ds ds' : List Dest} (hw : AllWidened ds ds') (ht : ∀ d ∈ ds, d.Tame e) : ∀ d ∈ ds', d.argTy ≠ .custom := by
  intro d' hm
  obtain ⟨i, hi, hx⟩ := List.getElem_of_mem hm
  have hi' : i < ds.length := by rw [← hw.length]; exact hi
  obtain ⟨d2, hd2, hwd⟩ := hw.each i _ (List.getElem?_eq_getElem hi')
  rw [List.getElem?_eq_getElem hi, hx] at hd2
  cases hd2
  rcases widened_cases hwd with ⟨h1, _⟩ | ⟨T, ty, T', ty', _, h2, _, _, _, _, _, h6⟩
  · rw [h1]; exact (tame_category (ht _ (List.getElem_mem hi'))).2
  · rw [h2]
    intro hc
    have hc : ty' = .custom := hc
    subst hc
    rcases h6 with h | h <;> cases h

end Scn
