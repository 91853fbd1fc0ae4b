import Verif.Props.Calls
import Verif.Lemmas.Renumber
import Verif.Lemmas.Loose
import Verif.Lemmas.Discard
import Verif.Lemmas.Padded2
import Verif.Props.Fields
import Verif.Props.Fields2
import Verif.Spec.AnyEncoding
/-
Helper lemmas: scan calls in any encoding.
-/
namespace Scn
open Spec

/-! ### Literal text -/

/-- The loop of literal texts on code points. -/
def litCp : Nat → List Nat → List Nat → List Nat × Option Err
  | _, s, [] => (s, none)
  | 0, s, _ :: _ => (s, none)
  | n + 1, s, c :: t =>
    match s with
    | [] => ([], some .invalidLiteral)
    | d :: ds =>
      if isSpace c then litCp n ((d :: ds).dropWhile isSpace) (t.dropWhile isSpace)
      else if d = c then litCp n ds t
      else (d :: ds, some .invalidLiteral)

theorem litCp_suffix : ∀ (n : Nat) (s t : List Nat), (litCp n s t).1 <:+ s := by
  intro n
  induction n with
  | zero => intro s t; cases t <;> exact List.suffix_refl _
  | succ n ih =>
    intro s t
    cases t with
    | nil => exact List.suffix_refl _
    | cons c t =>
      cases s with
      | nil => exact List.suffix_refl _
      | cons d ds =>
        simp only [litCp]
        split
        · exact (ih _ _).trans (List.dropWhile_suffix _)
        · split
          · exact (ih _ _).trans (List.suffix_cons _ _)
          · exact List.suffix_refl _

theorem litLoop_cp {V : Type} (env : Env V)
    (hsk : ∀ cps : List Nat, (∀ cp ∈ cps, IsScalar cp) →
      env.skip (encodes env.enc cps) = some (encodes env.enc (cps.dropWhile isSpace))) :
    ∀ (m n : Nat) (t s : List Nat), (∀ cp ∈ t, Simple env.enc cp) → (∀ cp ∈ s, IsScalar cp) →
      (encodes env.enc t).length ≤ n → t.length ≤ m →
      litLoop env n (encodes env.enc s) (encodes env.enc t) = some (encodes env.enc (litCp m s t).1, (litCp m s t).2) := by
  intro m
  induction m with
  | zero =>
    intro n t s ht hs hn hm
    have : t = [] := List.length_eq_zero_iff.1 (by omega)
    subst this
    cases n <;> simp [litLoop, litCp, encodes_nil]
  | succ m ih =>
    intro n t s ht hs hn hm
    cases t with
    | nil => cases n <;> simp [litLoop, litCp, encodes_nil]
    | cons a t =>
      have haS := ht a (by simp)
      have htS : ∀ cp ∈ t, Simple env.enc cp := fun cp hcp => ht cp (by simp [hcp])
      obtain ⟨c, cs, hc, _, _⟩ := encode_head env.enc a haS.1
      have htext : encodes env.enc (a :: t) = c :: (cs ++ encodes env.enc t) := by
        rw [encodes_cons, hc]; rfl
      cases n with
      | zero => rw [htext] at hn; simp at hn
      | succ n =>
      cases s with
      | nil => rw [htext]; simp [encodes_nil, litLoop, litCp]
      | cons b s =>
        have hbS := hs b (by simp)
        have hsS : ∀ cp ∈ s, IsScalar cp := fun cp hcp => hs cp (by simp [hcp])
        obtain ⟨d, ds, hd, _, _⟩ := encode_head env.enc b hbS
        have hsrc : encodes env.enc (b :: s) = d :: (ds ++ encodes env.enc s) := by
          rw [encodes_cons, hd]; rfl
        have hgn : getNext env.enc (c :: (cs ++ encodes env.enc t)) = some (encodes env.enc t, a) := by
          rw [← htext, encodes_cons]; exact getNext_encode env.enc a haS.1 _
        have hmt : t.length ≤ m := by simp only [List.length_cons] at hm; omega
        have hlen : (encodes env.enc t).length ≤ n := by
          rw [htext] at hn; simp only [List.length_cons, List.length_append] at hn; omega
        rw [htext, hsrc]
        simp only [litLoop, hgn, isSpace_eq, litCp]
        rw [if_neg (scalar_ne_invalid haS.1)]
        by_cases hsp : isSpace a = true
        · rw [if_pos hsp, if_pos hsp, ← hsrc, hsk _ hs,
            readWhileSpace_encodes env.enc .contiguous t (fun cp hcp => (htS cp hcp).1) (by cases env.enc <;> trivial)]
          simp only
          refine ih _ _ _ (fun cp hcp => htS cp ((List.dropWhile_suffix _).subset hcp)) (dropWhile_scalar hs _) ?_ ?_
          · refine Nat.le_trans ?_ hlen
            have h2 : encodes env.enc t =
                encodes env.enc (t.takeWhile isSpace) ++ encodes env.enc (t.dropWhile isSpace) := by
              rw [← encodes_append, List.takeWhile_append_dropWhile]
            rw [h2, List.length_append]; omega
          · exact Nat.le_trans (List.dropWhile_suffix _).length_le hmt
        · rw [if_neg hsp, if_neg hsp]
          obtain ⟨c', hc', _⟩ := encode_single haS.1 (haS.2.resolve_left hsp)
          rw [hc] at hc'
          simp only [List.cons.injEq] at hc'
          obtain ⟨rfl, rfl⟩ := hc'
          by_cases hdc : d = c
          · subst hdc
            rw [if_neg (by simp)]
            have hab := encode_inj_single haS.1 hbS hc hd
            subst hab
            rw [hc] at hd
            simp only [List.cons.injEq, true_and] at hd
            subst hd
            simp only [List.nil_append, if_true]
            exact ih n t s htS hsS hlen hmt
          · have hba : b ≠ a := by
              intro h; subst h
              rw [hc] at hd
              simp only [List.cons.injEq] at hd
              exact hdc hd.1.symm
            rw [if_pos hdc, if_neg hba, ← hsrc]

/-- Literal text on code points. -/
def litText (t s : List Nat) : Res (List Nat) :=
  match litCp t.length s t with
  | (r, none) => .ok r
  | (_, some x) => .err x

theorem litText_suffix {t s r : List Nat} (h : litText t s = .ok r) : r <:+ s := by
  unfold litText at h
  have := litCp_suffix t.length s t
  cases hx : litCp t.length s t with
  | mk a b =>
    rw [hx] at h this
    cases b with
    | none => cases h; exact this
    | some x => cases h

theorem litStep_any {e wide : Enc} {cfg : RegexCfg} {loc : LocaleData} {old : Nat} {ds : List Dest} {t s : List Nat} (ht : ∀ c ∈ t, Simple e c)
    (hs : ∀ c ∈ s, IsScalar c) :
    litStep (stdEnv e wide cfg loc old ds) (encodes e t) (encodes e s) = (litText t s).map (encodes e) := by
  have h := litLoop_cp (stdEnv e wide cfg loc old ds) (stdEnv_skips e wide cfg loc old ds) t.length (encodes e t).length t s ht hs (Nat.le_refl _) (Nat.le_refl _)
  have h' : litLoop (stdEnv e wide cfg loc old ds) (encodes e t).length (encodes e s) (encodes e t) = some (encodes e (litCp t.length s t).1, (litCp t.length s t).2) := h
  unfold litStep litText
  rw [h']
  cases hx : litCp t.length s t with
  | mk a b => cases b <;> rfl

/-! ### Fields -/

theorem read_rest {V : Type} (F : PaddedField) (sk : Bool) (rd : List Nat → Res (V × List Nat)) {cps rest : List Nat} {v : V}
    (h : F.read sk rd cps = .ok (v, rest)) : rest <:+ cps := by
  unfold PaddedField.read at h
  dsimp only at h
  split at h
  · cases h
  · split at h
    · cases h
    · cases hx : rd (F.view (cols (F.before sk cps)) (cps.drop (F.before sk cps).length)) with
      | ub => rw [hx] at h; cases h
      | err x => rw [hx] at h; cases h
      | ok r =>
        rw [hx, Res.bind_ok] at h
        split at h
        · cases h
        · cases h
          exact (List.drop_suffix _ _).trans ((List.drop_suffix _ _).trans (List.drop_suffix _ _))

theorem read_map_value {V W : Type} (F : PaddedField) (sk : Bool) (rd : List Nat → Res (V × List Nat)) (f : V → W) (cps : List Nat) :
    F.read sk (fun s => (rd s).map fun r => (f r.1, r.2)) cps = (F.read sk rd cps).map fun r => (f r.1, r.2) := by
  unfold PaddedField.read
  dsimp only
  split
  · rfl
  · split
    · rfl
    · cases rd (F.view (cols (F.before sk cps)) (cps.drop (F.before sk cps).length)) with
      | ub => rfl
      | err x => rfl
      | ok r =>
        simp only [Res.map_ok, Res.bind_ok]
        split <;> rfl

/-- What a field reads, on code points, whatever the encoding. -/
structure ReadsAny (R : List Nat → Res (Val × List Nat)) (rd : Enc → Enc → LocaleData → Nat → List Nat → Res (Val × List Nat)) : Prop where
  suffix : ∀ cps v r, R cps = .ok (v, r) → r <:+ cps
  read : ∀ e wide loc old cps, (∀ c ∈ cps, IsScalar c ∧ c ≠ 16) →
    rd e wide loc old (encodes e cps) = (R cps).map fun r => (inEnc e r.1, encodes e r.2)

theorem readsAny_map {V : Type} {ctor : V → Val} (hct : ∀ e v, inEnc e (ctor v) = ctor v) {r : Res (V × List Nat)} {e : Enc} :
    (r.map fun r => (r.1, encodes e r.2)).map (fun r => (ctor r.1, r.2)) = (r.map fun r => (ctor r.1, r.2)).map fun r => (inEnc e r.1, encodes e r.2) := by
  cases r with
  | ub => rfl
  | err x => rfl
  | ok r => simp only [Res.map_ok, hct]

theorem readSpecs_true {e wide : Enc} {loc : LocaleData} {old : Nat} {d : Dest} {sp : Specs} (h : runTypeCheck d.argTy sp = some true) (lay : List Nat → Layout) (s : List Nat) :
    d.readSpecs e wide loc old sp lay s = argRead e sp (d.specsReader e wide loc old sp) lay s := by
  unfold Dest.readSpecs; rw [h]

theorem contiguous_good (e : Enc) (cps : List Nat) : ∀ t, t <:+ cps → GoodLayout e ((fun _ => Layout.contiguous) (encodes e t)) t :=
  fun t _ => by cases e <;> trivial

theorem map_suffix {V : Type} {f : V → Val} {r : Res (V × List Nat)} {cps : List Nat} (h : ∀ v x, r = .ok (v, x) → x <:+ cps) {v : Val} {x : List Nat}
    (hx : (r.map fun r => (f r.1, r.2)) = .ok (v, x)) : x <:+ cps := by
  cases r with
  | ub => cases hx
  | err y => cases hx
  | ok r => cases hx; exact h r.1 r.2 rfl

theorem lookup_mem {β : Type} {a : Nat} {b : β} : ∀ {l : List (Nat × β)}, l.lookup a = some b → (a, b) ∈ l := by
  intro l
  induction l with
  | nil => intro h; cases h
  | cons x l ih =>
    intro h
    obtain ⟨y, z⟩ := x
    rw [List.lookup_cons] at h
    split at h
    · rename_i hx
      have : a = y := by simpa using hx
      cases h
      rw [this]; exact List.mem_cons_self ..
    · exact List.mem_cons_of_mem _ (ih h)

theorem specs_any {k : Common} (hk : k.Ok) {w : Written} (hw : ∀ e, w.Readable e (k.dest e).argTy []) (hloc : w.localized = false) :
    ∃ R, ReadsAny R fun e wide loc old s => (k.dest e).readSpecs e wide loc old (w.specs e) (fun _ => .contiguous) s := by
  have hchk : ∀ e, runTypeCheck (k.dest e).argTy (w.specs e) = runTypeCheck (k.dest .utf32).argTy (w.specs .utf32) := by
    intro e
    cases k with
    | string => cases e <;> rfl
    | int T ty => cases ty <;> rfl
    | float ty cv => cases ty <;> rfl
    | bool => rfl
    | codePoint => rfl
    | pointer => rfl
  cases hc : runTypeCheck (k.dest .utf32).argTy (w.specs .utf32) with
  | none =>
    refine ⟨fun _ => .ub, (fun _ _ _ h => by cases h), fun e wide loc old cps _ => ?_⟩
    unfold Dest.readSpecs; rw [hchk e, hc]; rfl
  | some b =>
  cases b with
  | false =>
    refine ⟨fun _ => .err .invalidFormatString, (fun _ _ _ h => by cases h), fun e wide loc old cps _ => ?_⟩
    unfold Dest.readSpecs; rw [hchk e, hc]; rfl
  | true =>
  have hF : ∀ e, Describes e (w.specs e) w.field := fun e => describes_written (hw e)
  have hgo : ∀ e wide loc old s, (k.dest e).readSpecs e wide loc old (w.specs e) (fun _ => .contiguous) s =
      argRead e (w.specs e) ((k.dest e).specsReader e wide loc old (w.specs e)) (fun _ => .contiguous) s :=
    fun e wide loc old s => readSpecs_true (by rw [hchk e, hc]) _ s
  cases k with
  | int T ty =>
    cases hb : (w.specs .utf32).getBase with
    | none =>
      refine ⟨fun cps => w.field.read true (fun _ => .ub) cps, (fun cps v r h => read_rest _ _ _ h), fun e wide loc old cps h => ?_⟩
      rw [hgo]
      have hb' : (w.specs e).getBase = none := hb
      rw [argRead_spec e _ _ (hF e) _ (fun _ => .ub) (P := IsScalar) ⟨fun l cps _ _ => ?_, fun _ h => h, fun _ _ _ h => by cases h⟩ _ cps (fun c hx => (h c hx).1) (contiguous_good e cps)]
      · cases hx : w.field.read true (fun _ => (Res.ub : Res (Val × List Nat))) cps with
        | ub => rw [show ((Common.int T ty).dest e).specsReader e wide loc old (w.specs e) = (intSpecsReader e loc T (w.specs e)).mapVal Val.int from rfl]; rw [show ((intSpecsReader e loc T (w.specs e)).mapVal Val.int).skipWs = true from rfl, hx]; rfl
        | err x => rw [show ((Common.int T ty).dest e).specsReader e wide loc old (w.specs e) = (intSpecsReader e loc T (w.specs e)).mapVal Val.int from rfl]; rw [show ((intSpecsReader e loc T (w.specs e)).mapVal Val.int).skipWs = true from rfl, hx]; rfl
        | ok r =>
          exfalso
          unfold PaddedField.read at hx
          dsimp only at hx
          split at hx
          · cases hx
          · split at hx <;> cases hx
      · show Res.map _ ((intSpecsReader e loc T (w.specs e)).read l (encodes e cps)) = _
        unfold intSpecsReader
        dsimp only
        rw [hb']; rfl
    | some b =>
      have hbase : b = 0 ∨ (2 ≤ b ∧ b ≤ 36) := by
        unfold Specs.getBase at hb
        split at hb <;> first | (cases hb; decide) | cases hb
      refine ⟨fun cps => (w.field.read true (scanIntW T b (decide ((w.specs .utf32).type = .intUnsigned))) cps).map fun r => (.int r.1, r.2),
        (fun cps v r h => map_suffix (fun v x hx => read_rest _ _ _ hx) h), fun e wide loc old cps h => ?_⟩
      rw [hgo]
      have hb' : (w.specs e).getBase = some b := hb
      have hl : (w.specs e).localized = false := hloc
      have hrd : ((Common.int T ty).dest e).specsReader e wide loc old (w.specs e) =
          (intReader e T b (decide ((w.specs .utf32).type = .intUnsigned))).mapVal Val.int := by
        show (intSpecsReader e loc T (w.specs e)).mapVal Val.int = _
        congr 1
        unfold intSpecsReader intReader
        congr 1
        funext l s
        rw [hb', hl]; rfl
      rw [hrd, argRead_mapVal, C36_int_partial e T hk.1 b _ hbase _ _ (hF e) _ cps h (contiguous_good e cps)]
      exact readsAny_map (ctor := Val.int) (fun _ _ => rfl)
  | bool =>
    refine ⟨fun cps => (w.field.read true (readTruth (boolWords (w.specs .utf32).type)) cps).map fun r => (.bool r.1, r.2),
      (fun cps v r h => map_suffix (fun v x hx => read_rest _ _ _ hx) h), fun e wide loc old cps h => ?_⟩
    rw [hgo]
    show argRead e (w.specs e) ((boolReader loc (w.specs e)).mapVal Val.bool) _ _ = _
    rw [argRead_mapVal, (C36_bool_partial e loc _ _ (hF e) _ cps (fun c hx => (h c hx).1) (contiguous_good e cps)).1 hloc hc]
    exact readsAny_map (ctor := Val.bool) (fun _ _ => rfl)
  | codePoint =>
    refine ⟨fun cps => (w.field.read false (fun | [] => .ub | c :: cs => .ok (c, cs)) cps).map fun r => (.char r.1, r.2),
      (fun cps v r h => map_suffix (fun v x hx => read_rest _ _ _ hx) h), fun e wide loc old cps h => ?_⟩
    rw [hgo]
    show argRead e (w.specs e) ((codePointReader e).mapVal Val.char) _ _ = _
    rw [argRead_mapVal, argRead_spec e _ _ (hF e) _ _ (codePointReader_whole e) _ cps (fun c hx => (h c hx).1) (contiguous_good e cps)]
    exact readsAny_map (ctor := Val.char) (fun _ _ => rfl)
  | pointer =>
    refine ⟨fun cps => (w.field.read true (scanIntW ⟨64, false⟩ 16 false) cps).map fun r => (.pointer r.1, r.2),
      (fun cps v r h => map_suffix (fun v x hx => read_rest _ _ _ hx) h), fun e wide loc old cps h => ?_⟩
    rw [hgo]
    show argRead e (w.specs e) ((pointerReader e).mapVal Val.pointer) _ _ = _
    rw [argRead_mapVal, C36_pointer_partial e _ _ (hF e) _ cps h (contiguous_good e cps)]
    exact readsAny_map (ctor := Val.pointer) (fun _ _ => rfl)
  | float ty cv =>
    obtain ⟨_, round, hcv⟩ := hk
    refine ⟨fun cps => (w.field.read true (readFloatAs cv .utf32 ⟨false, true && w.field.precision == 0⟩ false .classic (w.specs .utf32).type) cps).map fun r => (.float r.1, r.2),
      (fun cps v r h => map_suffix (fun v x hx => read_rest _ _ _ hx) h), fun e wide loc old cps h => ?_⟩
    rw [hgo]
    show argRead e (w.specs e) ((floatReader e loc cv false (w.specs e)).mapVal Val.float) _ _ = _
    rw [argRead_mapVal, C36_float_partial hcv e loc false _ hloc _ (hF e) _ true (by simp) cps (fun c hx => (h c hx).1) (contiguous_good e cps)]
    exact readsAny_map (ctor := Val.float) (fun _ _ => rfl)
  | string =>
    have hck : checkString (w.specs .utf32) = true := by
      have : some (checkString (w.specs .utf32)) = some true := hc
      injection this
    obtain ⟨s, hs, hsk, hsc⟩ : ∃ s, strKind (w.specs .utf32) = some s ∧ s ≠ .characterSet ∧ (s = .character → (w.specs .utf32).precision ≠ 0) := by
      have hlet : ∀ p, (w.letter.bind letterMeaning).getD .none = p → p ≠ .stringSet ∧ p ≠ .regex ∧ p ≠ .regexEscaped := by
        rintro p rfl
        cases hl : w.letter with
        | none => exact ⟨by decide, by decide, by decide⟩
        | some c =>
          show (letterMeaning c).getD .none ≠ .stringSet ∧ (letterMeaning c).getD .none ≠ .regex ∧ (letterMeaning c).getD .none ≠ .regexEscaped
          cases hm : letterMeaning c with
          | none => exact ⟨by decide, by decide, by decide⟩
          | some p =>
            have hmem : ∀ x ∈ letterTable, x.2 ≠ Pres.stringSet ∧ x.2 ≠ .regex ∧ x.2 ≠ .regexEscaped := by decide
            have : (c, p) ∈ letterTable := by
              unfold letterMeaning at hm
              exact lookup_mem hm
            exact hmem _ this
      have hl := hlet _ rfl
      have ht : (w.specs .utf32).type = (w.letter.bind letterMeaning).getD .none := rfl
      unfold checkString at hck
      unfold strKind
      rw [ht] at hck ⊢
      generalize (w.letter.bind letterMeaning).getD .none = p at hl hck ⊢
      cases p <;> simp_all
      split <;> simp
    refine ⟨fun cps => (w.field.read (s == .word) (fun cps => .ok (Val.string (cps.takeWhile fun c => ! kindStops s w.field.fill (fun _ => false) c),
        cps.dropWhile fun c => ! kindStops s w.field.fill (fun _ => false) c)) cps),
      (fun cps v r h => read_rest _ _ _ h), fun e wide loc old cps h => ?_⟩
    rw [hgo]
    have hs' : strKind (w.specs e) = some s := hs
    have hrd : (Common.string.dest e).specsReader e wide loc old (w.specs e) = (stringReader e e (w.specs e) s).mapVal Val.string := by
      show (match strKind (w.specs e) with
        | some k => (stringReader e e (w.specs e) k).mapVal Val.string
        | none => (regexReader e e loc (w.specs e)).mapVal Val.string) = _
      rw [hs']
    rw [hrd, argRead_mapVal, C36_string_partial e _ _ (hF e) s (fun _ => false) (fun h => absurd h hsk) hsc _ cps (fun c hx => (h c hx).1) (contiguous_good e cps)]
    have hneg : ∀ x : List Nat, ¬ (s = .characterSet ∧ x.takeWhile (fun _ => false) = []) := fun x hx => hsk hx.1
    have hfun : (fun cps : List Nat => if s = .characterSet ∧ cps.takeWhile (fun _ => false) = [] then (Res.err .invalidScannedValue : Res (List Nat × List Nat))
        else .ok (encodes e (cps.takeWhile fun c => ! kindStops s w.field.fill (fun _ => false) c), cps.dropWhile fun c => ! kindStops s w.field.fill (fun _ => false) c)) =
        fun cps => ((Res.ok (cps.takeWhile fun c => ! kindStops s w.field.fill (fun _ => false) c, cps.dropWhile fun c => ! kindStops s w.field.fill (fun _ => false) c) :
          Res (List Nat × List Nat))).map fun r => (encodes e r.1, r.2) := by
      funext x; rw [if_neg (hneg x)]; rfl
    rw [hfun, read_map_value]
    have hfun2 : (fun cps : List Nat => (Res.ok (Val.string (cps.takeWhile fun c => ! kindStops s w.field.fill (fun _ => false) c),
        cps.dropWhile fun c => ! kindStops s w.field.fill (fun _ => false) c) : Res (Val × List Nat))) =
        fun cps => ((Res.ok (cps.takeWhile fun c => ! kindStops s w.field.fill (fun _ => false) c, cps.dropWhile fun c => ! kindStops s w.field.fill (fun _ => false) c) :
          Res (List Nat × List Nat))).map fun r => (Val.string r.1, r.2) := by
      funext x; rfl
    rw [hfun2, read_map_value]
    cases w.field.read (s == .word) _ cps with
    | ub => rfl
    | err x => rfl
    | ok r => rfl

/-- Default reading on code points: after whitespace. -/
def afterWs (rds : List Nat → Res (Val × List Nat)) (cps : List Nat) : Res (Val × List Nat) :=
  if cps.dropWhile isSpace = [] then .err .endOfInput else rds (cps.dropWhile isSpace)

theorem default_skip {rds : List Nat → Res (Val × List Nat)} (hsuf : ∀ cps v r, rds cps = .ok (v, r) → r <:+ cps) {rd : Enc → Enc → Reader Val}
    (hsk : ∀ e wide, (rd e wide).skipWs = true)
    (hread : ∀ e wide cps, (∀ c ∈ cps, IsScalar c ∧ c ≠ 16) → (rd e wide).read .contiguous (encodes e cps) = (rds cps).map fun r => (inEnc e r.1, encodes e r.2)) :
    ReadsAny (afterWs rds) fun e wide _ _ s => defaultRead e (rd e wide) (fun _ => .contiguous) s := by
  refine ⟨fun cps v r h => ?_, fun e wide loc old cps h => ?_⟩
  · unfold afterWs at h
    split at h
    · cases h
    · exact (hsuf _ _ _ h).trans (List.dropWhile_suffix _)
  · rw [defaultRead_afterSpaces (hsk e wide) fun c hx => (h c hx).1]
    unfold afterSpaces afterWs
    split
    · rfl
    · exact hread e wide _ fun c hx => h c ((List.dropWhile_suffix _).subset hx)

theorem default_any {k : Common} (hk : k.Ok) :
    ∃ R, ReadsAny R fun e wide _ _ s => defaultRead e ((k.dest e).defaultReader e wide) (fun _ => .contiguous) s := by
  have hgl : ∀ e cps, GoodLayout e .contiguous cps := fun e cps => by cases e <;> trivial
  cases k with
  | int T ty =>
    refine ⟨_, default_skip (rds := fun cps => (scanIntW T 10 false cps).map fun r => (.int r.1, r.2))
      (fun cps v r h => map_suffix (fun v x hx => scanIntW_suffix hx) h) (fun _ _ => rfl) fun e wide cps h => ?_⟩
    show Res.map _ ((intReader e T 10 false).read .contiguous (encodes e cps)) = _
    rw [(intReader_whole e T hk.1 10 false (by decide)).read _ cps h (hgl e cps)]
    exact readsAny_map (ctor := Val.int) (fun _ _ => rfl)
  | bool =>
    refine ⟨_, default_skip (rds := fun cps => (readTruth (boolWords .none) cps).map fun r => (.bool r.1, r.2))
      (fun cps v r h => map_suffix (fun v x hx => readTruth_suffix hx) h) (fun _ _ => rfl) fun e wide cps h => ?_⟩
    show Res.map _ ((boolReader ⟨44, 46, [], [], fun _ _ _ _ => .none⟩ {}).read .contiguous (encodes e cps)) = _
    rw [(boolReader_whole e ⟨44, 46, [], [], fun _ _ _ _ => .none⟩ {} rfl rfl).read _ cps (fun c hx => (h c hx).1) (hgl e cps)]
    exact readsAny_map (ctor := Val.bool) (fun _ _ => rfl)
  | pointer =>
    refine ⟨_, default_skip (rds := fun cps => (scanIntW ⟨64, false⟩ 16 false cps).map fun r => (.pointer r.1, r.2))
      (fun cps v r h => map_suffix (fun v x hx => scanIntW_suffix hx) h) (fun _ _ => rfl) fun e wide cps h => ?_⟩
    show Res.map _ ((intReader e ⟨64, false⟩ 16 false).read .contiguous (encodes e cps)) = _
    rw [(intReader_whole e ⟨64, false⟩ (by unfold IntTy.Std; decide) 16 false (by decide)).read _ cps h (hgl e cps)]
    exact readsAny_map (ctor := Val.pointer) (fun _ _ => rfl)
  | float ty cv =>
    obtain ⟨_, round, hcv⟩ := hk
    have hw := fun e => floatReader_whole hcv e ⟨44, 46, [], [], fun _ _ _ _ => .none⟩ false {} rfl true
    refine ⟨_, default_skip (rds := fun cps => (readFloatAs cv .utf32 ⟨false, true⟩ false .classic .none cps).map fun r => (.float r.1, r.2))
      (fun cps v r h => map_suffix (fun v x hx => (hw .utf8).suffix _ _ _ hx) h) (fun _ _ => rfl) fun e wide cps h => ?_⟩
    show Res.map _ ((floatReader e ⟨44, 46, [], [], fun _ _ _ _ => .none⟩ cv false {}).read .contiguous (encodes e cps)) = _
    have := (hw e).read .contiguous cps (fun c hx => (h c hx).1) (hgl e cps)
    rw [if_pos rfl] at this
    rw [this]
    exact readsAny_map (ctor := Val.float) (fun _ _ => rfl)
  | string =>
    refine ⟨_, default_skip (rds := fun cps => .ok (.string (cps.takeWhile fun c => ! isSpace c), cps.dropWhile fun c => ! isSpace c))
      (fun cps v r h => by cases h; exact List.dropWhile_suffix _) (fun _ _ => rfl) fun e wide cps h => ?_⟩
    show Res.map _ ((stringReader e e {} .word).read .contiguous (encodes e cps)) = _
    rw [(stringReader_whole e {} ⟨0, 0, .unspecified, 32⟩ (describes_default _ 0 0) .word (fun _ => false) (fun h => by cases h) (fun h => by cases h)).read _ cps
      (fun c hx => (h c hx).1) (hgl e cps), if_neg (by simp)]
    rfl
  | codePoint =>
    refine ⟨fun | [] => .err .endOfInput | c :: cs => .ok (.char c, cs), ?_, fun e wide loc old cps h => ?_⟩
    · intro cps v r h
      cases cps with
      | nil => cases h
      | cons c cs => cases h; exact List.suffix_cons _ _
    · cases cps with
      | nil => rfl
      | cons c cs =>
        unfold defaultRead
        rw [if_neg (fun hx => by have := (encodes_eq_nil e _).1 hx; cases this)]
        show Res.map _ ((codePointReader e).read .contiguous (encodes e (c :: cs))) = _
        rw [(codePointReader_whole e).read _ _ (fun c hx => (h c hx).1) (hgl e _)]
        rfl

/-! ### Calls -/

/-- A field that reads the same in any encoding, on code points (`g`) and in an encoding (`f`). -/
structure FieldInAny (e : Enc) (f g : CallField Val) : Prop where
  gap : f.gap = encodes e g.gap
  simple : ∀ c ∈ g.gap, Simple e c
  id : f.id = g.id
  suffix : ∀ cps v r, g.read cps = .ok (v, r) → r <:+ cps
  read : ∀ cps, (∀ c ∈ cps, IsScalar c ∧ c ≠ 16) → f.read (encodes e cps) = (g.read cps).map fun r => (inEnc e r.1, encodes e r.2)

theorem step_any {e wide : Enc} {cfg : RegexCfg} {loc : LocaleData} {old : Nat} {ds : List Dest} {f g : CallField Val} (h : FieldInAny e f g) {cps : List Nat}
    (hc : ∀ c ∈ cps, IsScalar c ∧ c ≠ 16) :
    (litStep (stdEnv e wide cfg loc old ds) f.gap (encodes e cps)).bind f.read =
      ((litText g.gap cps).bind g.read).map fun r => (inEnc e r.1, encodes e r.2) := by
  rw [h.gap, litStep_any h.simple fun c hx => (hc c hx).1]
  cases hl : litText g.gap cps with
  | ub => rfl
  | err x => rfl
  | ok s =>
    rw [Res.map_ok, Res.bind_ok, Res.bind_ok]
    exact h.read s fun c hx => hc c ((litText_suffix hl).subset hx)

theorem step_suffix {e : Enc} {f g : CallField Val} (h : FieldInAny e f g) {cps : List Nat} {q : Val × List Nat}
    (hq : (litText g.gap cps).bind g.read = .ok q) : q.2 <:+ cps := by
  cases hl : litText g.gap cps with
  | ub => rw [hl] at hq; cases hq
  | err x => rw [hl] at hq; cases hq
  | ok s =>
    rw [hl, Res.bind_ok] at hq
    exact (h.suffix s q.1 q.2 hq).trans (litText_suffix hl)

theorem bind_read (a : Res (List Nat)) (rd : List Nat → Res (Val × List Nat)) (k : Val × List Nat → Res (List (Nat × Val) × List Nat)) :
    (a.bind fun s1 => (rd s1).bind k) = (a.bind rd).bind k := by cases a <;> rfl

theorem calls_any {α : Type} {e wide : Enc} {cfg : RegexCfg} {loc : LocaleData} {old : Nat} {ds : List Dest} {last : List Nat} (hlast : ∀ c ∈ last, Simple e c)
    (F G : α → CallField Val) (xs : List α) :
    (∀ x ∈ xs, FieldInAny e (F x) (G x)) → ∀ cps, (∀ c ∈ cps, IsScalar c ∧ c ≠ 16) →
      inOrder (litStep (stdEnv e wide cfg loc old ds)) (xs.map F) (encodes e last) (encodes e cps) =
        (inOrder litText (xs.map G) last cps).map (fun q => (q.1.map fun p => (p.1, inEnc e p.2), encodes e q.2)) ∧
      readBefore (litStep (stdEnv e wide cfg loc old ds)) (xs.map F) (encodes e cps) = (readBefore litText (xs.map G) cps).map (fun p => (p.1, inEnc e p.2)) ∧
      reached (litStep (stdEnv e wide cfg loc old ds)) (xs.map F) (encodes e cps) = reached litText (xs.map G) cps := by
  induction xs with
  | nil =>
    intro _ cps hc
    refine ⟨?_, rfl, rfl⟩
    simp only [List.map_nil, inOrder]
    rw [litStep_any hlast fun c hx => (hc c hx).1]
    cases litText last cps <;> rfl
  | cons x xs ih =>
    intro hx cps hc
    have h := hx x (by simp)
    have hstep := step_any (wide := wide) (cfg := cfg) (loc := loc) (old := old) (ds := ds) h hc
    simp only [List.map_cons, inOrder, readBefore, reached]
    rw [bind_read, bind_read, hstep, h.id]
    cases hq : (litText (G x).gap cps).bind (G x).read with
    | ub => exact ⟨rfl, rfl, rfl⟩
    | err y => exact ⟨rfl, rfl, rfl⟩
    | ok q =>
      obtain ⟨h1, h2, h3⟩ := ih (fun y hy => hx y (List.mem_cons_of_mem _ hy)) q.2 fun c hx => hc c ((step_suffix h hq).subset hx)
      simp only [Res.map_ok, Res.bind_ok]
      rw [h1, h2, h3]
      refine ⟨?_, rfl, rfl⟩
      cases inOrder litText (xs.map G) last q.2 <;> rfl

/-- A field there can be in any encoding: its literal text is whitespace and ASCII without braces, and its specification is accepted in
    every encoding and does not ask for the locale. -/
structure Spec.CommonField.Ok (ks : List Common) (x : CommonField) : Prop where
  gap : ∀ c ∈ x.gap, (isSpace c = true ∨ c < 128) ∧ IsScalar c ∧ c ≠ 123 ∧ c ≠ 125
  spec : ∀ w, x.spec = some w → w.localized = false ∧ ∀ e, w.render e ≠ [] ∧ ∀ k, ks[x.id]? = some k → w.Readable e (k.dest e).argTy []

theorem simple_any {e : Enc} {t : List Nat} (h : ∀ c ∈ t, (isSpace c = true ∨ c < 128) ∧ IsScalar c ∧ c ≠ 123 ∧ c ≠ 125) : ∀ c ∈ t, Simple e c := by
  intro c hc
  obtain ⟨h1, h2, _⟩ := h c hc
  refine ⟨h2, h1.imp_right fun h => ?_⟩
  rw [encode_ascii e c h]; rfl

theorem noBrace_any {e : Enc} {t : List Nat} (h : ∀ c ∈ t, (isSpace c = true ∨ c < 128) ∧ IsScalar c ∧ c ≠ 123 ∧ c ≠ 125) : NoBrace (encodes e t) := by
  refine encodes_noBrace (fun c hc => (h c hc).2.1) fun c hc => ?_
  obtain ⟨_, _, h1, h2⟩ := h c hc
  simp [isBrace, h1, h2]

/-- What a field reads, in an encoding. -/
def fieldRead (ks : List Common) (x : CommonField) (e wide : Enc) (loc : LocaleData) (old : Nat) (s : List Nat) : Res (Val × List Nat) :=
  match x.spec with
  | none => (stdEnv e wide ⟨false, false, false⟩ loc old (ks.map (Common.dest e))).readDefault x.id s
  | some w => (stdEnv e wide ⟨false, false, false⟩ loc old (ks.map (Common.dest e))).readSpecs x.id (w.specs e) s

theorem field_any {ks : List Common} (hk : ∀ k ∈ ks, k.Ok) {x : CommonField} (hx : x.Ok ks) : ∃ R, ReadsAny R (fieldRead ks x) := by
  cases hd : ks[x.id]? with
  | none =>
    have hm : ∀ e, (ks.map (Common.dest e))[x.id]? = none := fun e => by rw [List.getElem?_map, hd]; rfl
    refine ⟨fun _ => .ub, fun _ _ _ h => (by cases h), fun e wide loc old cps _ => ?_⟩
    unfold fieldRead
    split
    · show (match (ks.map (Common.dest e))[x.id]? with | none => Res.ub | some d => _) = _
      rw [hm]; rfl
    · show (match (ks.map (Common.dest e))[x.id]? with | none => Res.ub | some d => _) = _
      rw [hm]; rfl
  | some k =>
    have hm : ∀ e, (ks.map (Common.dest e))[x.id]? = some (k.dest e) := fun e => by rw [List.getElem?_map, hd]; rfl
    have hok := hk k (List.mem_of_getElem? hd)
    cases hs : x.spec with
    | none =>
      obtain ⟨R, h⟩ := default_any hok
      refine ⟨R, h.suffix, fun e wide loc old cps hc => ?_⟩
      rw [← h.read e wide loc old cps hc]
      unfold fieldRead
      rw [hs]
      show (match (ks.map (Common.dest e))[x.id]? with | none => Res.ub | some d => _) = _
      rw [hm]
    | some w =>
      obtain ⟨h1, h2⟩ := hx.spec w hs
      obtain ⟨R, h⟩ := specs_any hok (fun e => (h2 e).2 k hd) h1
      refine ⟨R, h.suffix, fun e wide loc old cps hc => ?_⟩
      rw [← h.read e wide loc old cps hc]
      unfold fieldRead
      rw [hs]
      show (match (ks.map (Common.dest e))[x.id]? with | none => Res.ub | some d => _) = _
      rw [hm]

/-- The fields of a call, in an encoding. -/
def fieldIn (ks : List Common) (e wide : Enc) (loc : LocaleData) (old : Nat) (x : CommonField) : CallField Val :=
  ⟨encodes e x.gap, x.id, x.spec.map (Written.render e), fieldRead ks x e wide loc old⟩

theorem common_argTy {k : Common} (h : k.Ok) (e : Enc) : (k.dest e).argTy ≠ .custom := by
  cases k with
  | int T ty => intro hx; have hx : ty = .custom := hx; subst hx; rcases h.2 with h | h <;> cases h
  | float ty cv => intro hx; have hx : ty = .custom := hx; subst hx; cases h.1
  | string => cases e <;> decide
  | _ => intro hx; cases hx

theorem fieldIn_means {ks : List Common} (hk : ∀ k ∈ ks, k.Ok) {x : CommonField} (hx : x.Ok ks) (hid : x.id < ks.length) (e wide : Enc) (cfg : RegexCfg)
    (loc : LocaleData) (old : Nat) : FieldMeans (stdEnv e wide cfg loc old (ks.map (Common.dest e))) (fieldIn ks e wide loc old x) := by
  have hd : ks[x.id]? = some ks[x.id] := List.getElem?_eq_getElem hid
  have hm : (ks.map (Common.dest e))[x.id]? = some (ks[x.id].dest e) := by rw [List.getElem?_map, hd]; rfl
  have hty := std_argTy (e := e) (wide := wide) (cfg := cfg) (loc := loc) (old := old) hm
  cases hs : x.spec with
  | none =>
    unfold FieldMeans fieldIn
    simp only [hs, Option.map_none]
    unfold fieldRead
    rw [hs]; rfl
  | some w =>
    obtain ⟨h1, h2⟩ := hx.spec w hs
    have := fieldMeans_written (env := stdEnv e wide cfg loc old (ks.map (Common.dest e))) (w := w) (h2 e).1 (id := x.id)
      (by rw [hty]; exact common_argTy (hk _ (List.getElem_mem hid)) e) (by rw [hty]; exact (h2 e).2 _ hd) (encodes e x.gap)
    have heq : fieldIn ks e wide loc old x = ⟨encodes e x.gap, x.id, some (w.render e),
        (stdEnv e wide cfg loc old (ks.map (Common.dest e))).readSpecs x.id (w.specs e)⟩ := by
      unfold fieldIn
      have : fieldRead ks x e wide loc old = (stdEnv e wide cfg loc old (ks.map (Common.dest e))).readSpecs x.id (w.specs e) := by
        funext s; unfold fieldRead; rw [hs]; rfl
      rw [this, hs]; rfl
    rw [heq]; exact this

/-- The result of a call, on code points. -/
def cpResult (gs : List (CallField Val)) (last src : List Nat) : Option (Except Err (List Nat) × List (Nat × Val)) :=
  match inOrder litText gs last src with
  | .ub => none
  | .ok q => some (.ok q.2, q.1)
  | .err x => some (.error (if reached litText gs src < gs.length then .invalidFormatString else x), readBefore litText gs src)

theorem callFormat_read (auto : Bool) (ks : List Common) (e wide : Enc) (loc : LocaleData) (old : Nat) (xs : List CommonField) (last : List Nat) :
    callFormat auto (xs.map (CommonField.written e)) last = callFormat auto (xs.map (fieldIn ks e wide loc old)) last := by
  unfold callFormat
  rw [List.flatMap_map, List.flatMap_map]
  rfl

theorem vscan_any {ks : List Common} (hk : ∀ k ∈ ks, k.Ok) (h64 : ks.length < 64) {auto : Bool} {xs : List CommonField} (hx : ∀ x ∈ xs, x.Ok ks)
    (hn : Numbered auto (xs.map fun x => x.id) ks.length) {last : List Nat} (hlast : ∀ c ∈ last, (isSpace c = true ∨ c < 128) ∧ IsScalar c ∧ c ≠ 123 ∧ c ≠ 125)
    {src : List Nat} (hsrc : ∀ c ∈ src, IsScalar c ∧ c ≠ 16) {R : CommonField → List Nat → Res (Val × List Nat)} (hR : ∀ x ∈ xs, ReadsAny (R x) (fieldRead ks x))
    (e wide : Enc) (cfg : RegexCfg) (loc : LocaleData) (old : Nat) :
    (vscan (stdEnv e wide cfg loc old (ks.map (Common.dest e))) (callFormat auto (xs.map (CommonField.written e)) (encodes e last)) (encodes e src)).map (fun r => (r.1, stored r.2)) =
      (cpResult (xs.map fun x => ⟨x.gap, x.id, none, R x⟩) last src).map (resultIn e) := by
  rw [callFormat_read auto ks e wide loc old]
  have hids : ∀ x ∈ xs, x.id < ks.length := fun x hm => hn.below x.id (List.mem_map.2 ⟨x, hm, rfl⟩)
  have hc : ∀ d ∈ ks.map (Common.dest e), d.argTy ≠ .custom := by
    intro d hd
    obtain ⟨k, hm, rfl⟩ := List.mem_map.1 hd
    exact common_argTy (hk k hm) e
  have h64' : (stdEnv e wide cfg loc old (ks.map (Common.dest e))).count < 64 := by
    show (ks.map (Common.dest e)).length < 64
    rw [List.length_map]; exact h64
  have hn' : Numbered auto ((xs.map (fieldIn ks e wide loc old)).map fun f => f.id) (stdEnv e wide cfg loc old (ks.map (Common.dest e))).count := by
    show Numbered auto _ (ks.map (Common.dest e)).length
    rw [List.length_map, List.map_map]; exact hn
  have hf : ∀ f ∈ xs.map (fieldIn ks e wide loc old), FieldMeans (stdEnv e wide cfg loc old (ks.map (Common.dest e))) f ∧ NoBrace f.gap := by
    intro f hf
    obtain ⟨x, hm, rfl⟩ := List.mem_map.1 hf
    exact ⟨fieldIn_means hk (hx x hm) (hids x hm) e wide cfg loc old, noBrace_any (hx x hm).gap⟩
  have hl := noBrace_any (e := e) hlast
  obtain ⟨c1, c2, c3⟩ := calls_any (e := e) (wide := wide) (cfg := cfg) (loc := loc) (old := old) (ds := ks.map (Common.dest e)) (simple_any hlast)
    (fieldIn ks e wide loc old) (fun x => ⟨x.gap, x.id, none, R x⟩) xs
    (fun x hm => ⟨rfl, simple_any (hx x hm).gap, rfl, (hR x hm).suffix, fun cps h => (hR x hm).read e wide loc old cps h⟩) src hsrc
  unfold cpResult
  cases h : inOrder litText (xs.map fun x => (⟨x.gap, x.id, none, R x⟩ : CallField Val)) last src with
  | ub =>
    rw [h] at c1
    rw [(C81_undefined_partial hl h64' hf hn' _).2 c1]; rfl
  | ok q =>
    rw [h] at c1
    obtain ⟨evs, h1, h2⟩ := C81_success_partial hl h64' hf hn' c1
    rw [h1, Option.map_some, h2]; rfl
  | err y =>
    rw [h] at c1
    obtain ⟨evs, e', h1, h2, _, h3, h4⟩ := C81_failure_partial hl h64' hf hn' c1
    rw [c3, List.length_map] at h3 h4
    rw [h1, Option.map_some, h2, c2]
    dsimp only
    rw [List.length_map]
    split
    · rename_i hlt
      rw [h4 hlt]; rfl
    · rename_i hge
      have hle := reached_le litText (xs.map fun x => (⟨x.gap, x.id, none, R x⟩ : CallField Val)) src
      rw [List.length_map] at hle
      rw [h3 (fun f _ => stdEnv_argTy_custom hc f.id) (by omega)]; rfl

theorem resultIn_utf32 (r : Except Err (List Nat) × List (Nat × Val)) : resultIn .utf32 r = r := by
  obtain ⟨a, b⟩ := r
  unfold resultIn
  refine Prod.ext ?_ ?_
  · cases a with
    | error x => rfl
    | ok t => exact congrArg Except.ok (encodes_utf32 t)
  · show b.map _ = b
    refine (List.map_congr_left fun p _ => ?_).trans (List.map_id' _)
    obtain ⟨i, v⟩ := p
    cases v <;> first | rfl | exact congrArg (Prod.mk i) (congrArg Val.string (encodes_utf32 _))

end Scn
