import Verif.Lemmas.Boundary
import Verif.Lemmas.Ranges
import Verif.Lemmas.FloatText
import Verif.Lemmas.Swar
/-
The readers stay between the characters of a well-formed text.
-/
namespace Scn
open Spec
variable {V : Type}

/-- Reading from a position between two characters ends between two characters. -/
def Keeps (e : Enc) (rd : Layout → List Nat → Res (V × List Nat)) : Prop :=
  ∀ l cps, (∀ c ∈ cps, IsScalar c) → ∀ v r, rd l (encodes e cps) = .ok (v, r) → Between e cps r

theorem Keeps.map {W : Type} {e : Enc} {rd : Reader V} (f : V → W) (h : Keeps e rd.read) : Keeps e (rd.mapVal f).read := by
  intro l cps hs v r hr
  have hr' : (rd.read l (encodes e cps)).map (fun r => (f r.1, r.2)) = .ok (v, r) := hr
  cases hx : rd.read l (encodes e cps) with
  | ub => rw [hx] at hr'; cases hr'
  | err x => rw [hx] at hr'; cases hr'
  | ok x =>
    rw [hx] at hr'
    cases hr'
    exact h l cps hs _ _ (by rw [hx])

theorem padded_rest {F : PaddedField} {b : Bool} {rd : List Nat → Res (V × List Nat)} {cps r : List Nat} {v : V}
    (h : F.read b rd cps = .ok (v, r)) : r <:+ cps := by
  unfold PaddedField.read at h
  dsimp only at h
  split at h
  · cases h
  · split at h
    · cases h
    · cases hx : rd (F.view (cols (F.before b cps)) (cps.drop (F.before b cps).length)) with
      | ub => rw [hx] at h; cases h
      | err x => rw [hx] at h; cases h
      | ok x =>
        rw [hx, Res.bind_ok] at h
        split at h
        · cases h
        · cases h
          exact (List.drop_suffix _ _).trans ((List.drop_suffix _ _).trans (List.drop_suffix _ _))

/-- A padded field around such a reader. -/
theorem argRead_keeps {e : Enc} {sp : Specs} {F : PaddedField} (hF : Describes e sp F) {rd : Reader V} (h : Keeps e rd.read)
    {lay : List Nat → Layout} (hlay : GoodLayouts e lay) {cps : List Nat} (hs : ∀ c ∈ cps, IsScalar c) {v : V} {r : List Nat}
    (hr : argRead e sp rd lay (encodes e cps) = .ok (v, r)) : Between e cps r := by
  classical
  have key : ∀ l, ∃ rds : List Nat → Res (V × List Nat), (∀ c, (∀ x ∈ c, IsScalar x) →
      rd.read l (encodes e c) = (rds c).map fun r => (r.1, encodes e r.2)) ∧ ∀ c v r, rds c = .ok (v, r) → r <:+ c := by
    intro l
    have each : ∀ c, ∃ y : Res (V × List Nat), ((∀ x ∈ c, IsScalar x) → rd.read l (encodes e c) = y.map fun r => (r.1, encodes e r.2)) ∧
        ∀ v r, y = .ok (v, r) → r <:+ c := by
      intro c
      by_cases hc : ∀ x ∈ c, IsScalar x
      · cases hx : rd.read l (encodes e c) with
        | ub => exact ⟨.ub, fun _ => rfl, fun _ _ h => by cases h⟩
        | err x => exact ⟨.err x, fun _ => rfl, fun _ _ h => by cases h⟩
        | ok x =>
          obtain ⟨t, ht, he⟩ := h l c hc x.1 x.2 hx
          exact ⟨.ok (x.1, t), fun _ => by simp only [Res.map]; rw [← he], fun _ _ h => by cases h; exact ht⟩
      · exact ⟨.ub, fun h => absurd h hc, fun _ _ h => by cases h⟩
    exact ⟨fun c => (each c).choose, fun c => (each c).choose_spec.1, fun c => (each c).choose_spec.2⟩
  have hd : cps.drop (F.before rd.skipWs cps).length <:+ cps := List.drop_suffix _ _
  obtain ⟨rds, h1, h2⟩ := key (if F.precision = 0 then lay (encodes e (cps.drop (F.before rd.skipWs cps).length)) else .segmented 0)
  rw [argRead_at e sp F hF rd lay cps hs (fun t ht => hlay t fun c hc => hs c (ht.subset hc)) rds _ rfl
    (h1 _ fun x hx => hs x (hd.subset ((view_prefix F _ _).subset hx))) (h2 _)] at hr
  cases hx : F.read rd.skipWs rds cps with
  | ub => rw [hx] at hr; cases hr
  | err x => rw [hx] at hr; cases hr
  | ok x =>
    rw [hx] at hr
    cases hr
    exact ⟨x.2, padded_rest hx, rfl⟩

/-- A field without a specification. -/
theorem defaultRead_keeps {e : Enc} {rd : Reader V} (h : Keeps e rd.read) {lay : List Nat → Layout} (hlay : GoodLayouts e lay)
    {cps : List Nat} (hs : ∀ c ∈ cps, IsScalar c) {v : V} {r : List Nat}
    (hr : defaultRead e rd lay (encodes e cps) = .ok (v, r)) : Between e cps r := by
  unfold defaultRead at hr
  split at hr
  · cases hr
  · split at hr
    · rw [skipSpace_encodes e _ cps hs (hlay cps hs)] at hr
      split at hr
      · cases hr
      · rw [Res.bind_ok] at hr
        have hd : cps.dropWhile isSpace <:+ cps := List.dropWhile_suffix _
        exact (h _ _ (fun c hc => hs c (hd.subset hc)) v r hr).trans hd
    · exact h _ _ hs v r hr

/-! ### Strings -/

theorem between_split {s r : List Nat} (h : r <:+ s) : s = between s r ++ r := by
  obtain ⟨a, rfl⟩ := h
  rw [between_append]

theorem readString_keeps {src dst : Enc} {cps it : List Nat} (hs : ∀ c ∈ cps, IsScalar c) (hit : it <:+ encodes src cps) {v r : List Nat}
    (h : readString src dst (encodes src cps) it = .ok (v, r)) : Between src cps r := by
  unfold readString at h
  split at h
  · cases h
  · cases h
  · rename_i hv
    cases ht : transcodeIfNecessary src dst (between (encodes src cps) it) with
    | ub => rw [ht] at h; cases h
    | err x => rw [ht] at h; cases h
    | ok x =>
      rw [ht] at h
      cases h
      exact validate_between _ hs (between_split hit) hv

theorem readStringView_keeps {src dst : Enc} {stored : Bool} {cps it : List Nat} (hs : ∀ c ∈ cps, IsScalar c) (hit : it <:+ encodes src cps) {v r : List Nat}
    (h : readStringView src dst stored (encodes src cps) it = .ok (v, r)) : Between src cps r := by
  unfold readStringView at h
  split at h
  · cases h
  · split at h
    · cases h
    · split at h
      · cases h
      · cases h
      · rename_i hv
        cases h
        exact validate_between _ hs (between_split hit) hv

theorem encodes_unitsOk (e : Enc) {cps : List Nat} (hs : ∀ c ∈ cps, IsScalar c) : UnitsOk e (encodes e cps) := by
  intro he b hb
  subst he
  exact utf8s_bytes cps hs b hb

theorem bind_keeps {e : Enc} {cps : List Nat} {x : Res (List Nat)} {s : List Nat} (hx : EndOk x s) {k : List Nat → Res (List Nat × List Nat)}
    (hk : ∀ it, it <:+ s → ∀ v r, k it = .ok (v, r) → Between e cps r) {v r : List Nat} (h : x.bind k = .ok (v, r)) : Between e cps r := by
  cases x with
  | ub => cases h
  | err x => cases h
  | ok it => exact hk it (hx.2 it rfl) v r h

theorem stringReader_keeps {e dst : Enc} {sp : Specs} (hset : handleNonascii e sp ≠ .ub) (k : StrKind) : Keeps e (stringReader e dst sp k).read := by
  intro l cps hs v r h
  refine bind_keeps (stringEnd_ok hset k l _ (encodes_unitsOk e hs)) (k := readString e dst (encodes e cps))
    (fun it hit v r hr => readString_keeps hs hit hr) (v := v) ?_
  rw [← h]
  cases k with
  | word =>
    show (match readUntilSpace e l (encodes e cps) with | none => Res.ub | some it => .ok it).bind _ = readWord e dst l (encodes e cps)
    unfold readWord
    cases readUntilSpace e l (encodes e cps) <;> rfl
  | customWord =>
    show (match sp.fill.units e with | [u] => Res.ok (readUntilUnit (fun c => c == u) (encodes e cps)) | us => .ok (readUntilUnits us (encodes e cps))).bind _ =
      readCustomWord e dst sp (encodes e cps)
    unfold readCustomWord
    generalize sp.fill.units e = us
    rcases us with _ | ⟨u, _ | ⟨w, us⟩⟩ <;> rfl
  | character =>
    show (if sp.precision != 0 then Res.ok (readAll (encodes e cps)) else .err .invalidFormatString).bind _ = readCharacters e dst (sp.precision != 0) (encodes e cps)
    unfold readCharacters
    cases sp.precision != 0 <;> rfl
  | characterSet => rfl

theorem viewReader_keeps {e dst : Enc} {stored : Bool} {sp : Specs} (hset : handleNonascii e sp ≠ .ub) (k : StrKind) :
    Keeps e (viewReader e dst stored sp k).read := fun l _ hs _ _ h =>
  bind_keeps (stringEnd_ok hset k l _ (encodes_unitsOk e hs)) (fun _ hit _ _ hr => readStringView_keeps hs hit hr) h

theorem regexReader_keeps {e dst : Enc} {loc : LocaleData} {sp : Specs} (hk : strKind sp = none) : Keeps e (regexReader e dst loc sp).read :=
  fun l _ hs _ _ h => bind_keeps (regexStringEnd_ok e loc hk l _) (fun _ hit _ _ hr => readString_keeps hs hit hr) h

theorem regexViewReader_keeps {e dst : Enc} {stored : Bool} {loc : LocaleData} {sp : Specs} (hk : strKind sp = none) :
    Keeps e (regexViewReader e dst stored loc sp).read :=
  fun l _ hs _ _ h => bind_keeps (regexStringEnd_ok e loc hk l _) (fun _ hit _ _ hr => readStringView_keeps hs hit hr) h

/-! ### Characters -/

theorem codePoint_keeps (e : Enc) : Keeps e (codePointReader e).read := by
  intro l cps hs v r h
  have h' : readCodePoint e (encodes e cps) = .ok (v, r) := h
  cases cps with
  | nil => simp [readCodePoint, encodes_nil, readCpInto] at h'
  | cons x cps =>
    unfold readCodePoint at h'
    rw [encodes_cons, readCpInto_encode e x (hs x (by simp))] at h'
    dsimp only at h'
    split at h'
    · cases h'
    · split at h'
      · cases h'
      · cases h'
        exact ⟨cps, List.suffix_cons _ _, rfl⟩

theorem wideChar_keeps (e wide : Enc) : Keeps e (fun _ s => readWideChar e wide s) := by
  intro l cps hs v r h
  have h' : (readCodePoint e (encodes e cps)).bind (fun r => (encodeWide wide r.1 true).map fun c => (c, r.2)) = .ok (v, r) := h
  cases hx : readCodePoint e (encodes e cps) with
  | ub => rw [hx] at h'; cases h'
  | err x => rw [hx] at h'; cases h'
  | ok x =>
    rw [hx, Res.bind_ok] at h'
    cases hw : encodeWide wide x.1 true with
    | ub => rw [hw] at h'; cases h'
    | err y => rw [hw] at h'; cases h'
    | ok y =>
      rw [hw] at h'
      cases h'
      exact codePoint_keeps e l cps hs _ _ hx

theorem wcharDefault_keeps {e wide : Enc} (he : e ≠ .utf16) : Keeps e (fun _ s => readWcharDefault e wide s) := by
  cases e with
  | utf8 => exact wideChar_keeps .utf8 wide
  | utf16 => exact absurd rfl he
  | utf32 =>
    intro l cps hs v r h
    cases cps with
    | nil => exact absurd h (by simp [readWcharDefault, readCodeUnit, encodes_nil])
    | cons x cps =>
      have h' : readCodeUnit (encodes .utf32 (x :: cps)) = .ok (v, r) := h
      rw [encodes_utf32] at h'
      cases h'
      exact ⟨_, List.suffix_cons _ _, (encodes_utf32 _).symm⟩

/-! ### Truth values -/

theorem matching_between {e : Enc} {cps w r : List Nat} (hs : ∀ c ∈ cps, IsScalar c) {name : List Nat} (hn : ∀ c ∈ name, IsScalar c)
    (hw : w = encodes e name) (h : readMatchingString w (encodes e cps) = some r) : Between e cps r := by
  subst hw
  unfold readMatchingString readExactly at h
  split at h
  · cases h
  · rename_i it hit
    split at hit
    · cases hit
    · cases hit
      split at h
      · cases h
      · rename_i hb
        cases h
        have hb' := Classical.not_not.1 hb
        have hp : encodes e name <+: encodes e cps := by
          have := between_split (List.drop_suffix (encodes e name).length (encodes e cps))
          rw [hb'] at this
          exact ⟨_, this.symm⟩
        obtain ⟨t, rfl⟩ := (encodes_prefix_iff e hn hs).1 hp
        refine ⟨t, List.suffix_append _ _, ?_⟩
        rw [encodes_append, List.drop_left]

theorem readBool_keeps {e : Enc} {numeric text : Bool} {rdText : List Nat → Option (Bool × List Nat)}
    (ht : ∀ cps, (∀ c ∈ cps, IsScalar c) → ∀ b r, rdText (encodes e cps) = some (b, r) → Between e cps r) :
    Keeps e (fun _ s => readBool numeric text rdText s) := by
  intro l cps hs v r h
  dsimp only at h
  unfold readBool at h
  split at h
  · rename_i x hx
    cases h
    split at hx
    · refine Dropped.between hs ?_
      unfold readBoolNumeric readMatchingUnit at hx
      cases hc : encodes e cps with
      | nil => rw [hc] at hx; simp at hx
      | cons c cs =>
        rw [hc] at hx
        dsimp only at hx
        by_cases h48 : c = 48
        · rw [if_neg (by simpa using h48)] at hx
          cases hx
          exact Dropped.cons (single_ascii e (by omega))
        · rw [if_pos h48] at hx
          dsimp only at hx
          by_cases h49 : c = 49
          · rw [if_neg (by simpa using h49)] at hx
            cases hx
            exact Dropped.cons (single_ascii e (by omega))
          · rw [if_pos h49] at hx
            cases hx
    · cases hx
  · split at h
    · rename_i x hx
      cases h
      split at hx
      · exact ht cps hs _ _ hx
      · cases hx
    · cases h

theorem readBoolText_keeps (e : Enc) (cps : List Nat) (hs : ∀ c ∈ cps, IsScalar c) (b : Bool) (r : List Nat)
    (h : readBoolText (encodes e cps) = some (b, r)) : Between e cps r := by
  have e1 : [116, 114, 117, 101] = encodes e [116, 114, 117, 101] := by
    simp only [encodes_cons, encodes_nil, encode_ascii e _ (show 116 < 128 by decide), encode_ascii e _ (show 114 < 128 by decide),
      encode_ascii e _ (show 117 < 128 by decide), encode_ascii e _ (show 101 < 128 by decide)]
    rfl
  have e2 : [102, 97, 108, 115, 101] = encodes e [102, 97, 108, 115, 101] := by
    simp only [encodes_cons, encodes_nil, encode_ascii e _ (show 102 < 128 by decide), encode_ascii e _ (show 97 < 128 by decide),
      encode_ascii e _ (show 108 < 128 by decide), encode_ascii e _ (show 115 < 128 by decide), encode_ascii e _ (show 101 < 128 by decide)]
    rfl
  unfold readBoolText at h
  split at h
  · rename_i hx
    cases h
    exact matching_between hs (by unfold IsScalar; decide) e1 hx
  · split at h
    · rename_i hx
      cases h
      exact matching_between hs (by unfold IsScalar; decide) e2 hx
    · cases h

theorem readBoolNames_keeps {e : Enc} {t f : List Nat} (ht : ∃ n, (∀ c ∈ n, IsScalar c) ∧ t = encodes e n)
    (hf : ∃ n, (∀ c ∈ n, IsScalar c) ∧ f = encodes e n) (cps : List Nat) (hs : ∀ c ∈ cps, IsScalar c) (b : Bool) (r : List Nat)
    (h : readBoolNames t f (encodes e cps) = some (b, r)) : Between e cps r := by
  obtain ⟨n, hn, ht⟩ := ht
  obtain ⟨m, hm, hf⟩ := hf
  unfold readBoolNames at h
  dsimp only at h
  split at h
  · rename_i hx
    cases h
    split at hx
    · exact matching_between hs hn ht hx
    · exact matching_between hs hm hf hx
  · split at h
    · rename_i hx
      cases h
      split at hx
      · exact matching_between hs hm hf hx
      · exact matching_between hs hn ht hx
    · cases h

end Scn
