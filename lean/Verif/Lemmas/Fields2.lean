import Verif.Lemmas.Fields
import Verif.Lemmas.Buffer2
import Verif.Lemmas.Charset2
/-
The fields of integers and words: their readers read whole characters.
-/
namespace Scn
open Spec

theorem not_digit_big (b c : Nat) (hc : 127 < c) : ¬ IsDigit b c := by
  rintro ⟨d, h1, h2⟩
  unfold digit? at h1
  rw [if_neg (by omega), if_neg (by omega), if_neg (by omega)] at h1
  cases h1

theorem encode_first_big (e : Enc) (cp : Nat) (h : IsScalar cp) (hc : 127 < cp) :
    ∃ u us, encode e cp = u :: us ∧ 127 < u := by
  cases hu : encode e cp with
  | nil => exact absurd hu (encode_ne_nil e cp)
  | cons u us =>
    refine ⟨u, us, rfl, ?_⟩
    apply Nat.lt_of_not_le
    intro hle
    have := encode_mem_ascii e cp u h (by rw [hu]; simp) (by omega)
    omega

/-- A text starts with an ASCII character, encoded as itself, or with a unit above 127. -/
theorem encodes_cases (e : Enc) (c : Nat) (cs : List Nat) (h : IsScalar c) :
    (c ≤ 127 ∧ encodes e (c :: cs) = c :: encodes e cs) ∨ (127 < c ∧ ∃ u us, 127 < u ∧ encodes e (c :: cs) = u :: us) := by
  by_cases hc : c ≤ 127
  · exact Or.inl ⟨hc, by rw [encodes_cons, encode_ascii e c (by omega)]; rfl⟩
  · obtain ⟨u, us, hu, hbig⟩ := encode_first_big e c h (by omega)
    exact Or.inr ⟨by omega, u, us ++ encodes e cs, hbig, by rw [encodes_cons, hu]; rfl⟩

theorem digitRun_encodes (e : Enc) (b : Nat) (cps : List Nat) (h : ∀ cp ∈ cps, IsScalar cp) :
    digitRun b (encodes e cps) = digitRun b cps ∧ afterRun b (encodes e cps) = encodes e (afterRun b cps) := by
  induction cps with
  | nil => exact ⟨rfl, rfl⟩
  | cons c cs ih =>
    obtain ⟨ih1, ih2⟩ := ih (fun x hx => h x (List.mem_cons_of_mem _ hx))
    rcases encodes_cases e c cs (h c (by simp)) with ⟨hc, hE⟩ | ⟨hc, u, us, hu, hE⟩
    · unfold digitRun afterRun at *
      by_cases hd : IsDigit b c
      · rw [hE]
        simp only [List.takeWhile_cons, List.dropWhile_cons, hd, decide_true, if_true]
        exact ⟨by rw [ih1], ih2⟩
      · simp only [hE, List.takeWhile_cons, List.dropWhile_cons, hd, decide_false]
        exact ⟨rfl, hE.symm⟩
    · have hd1 := not_digit_big b c hc
      have hd2 := not_digit_big b u hu
      unfold digitRun afterRun
      simp only [hE, List.takeWhile_cons, List.dropWhile_cons, hd1, hd2, decide_false]
      exact ⟨rfl, hE.symm⟩

theorem scanDigitsW_encodes (e : Enc) (T : IntTy) (neg : Bool) (b : Nat) (cps : List Nat) (h : ∀ cp ∈ cps, IsScalar cp) :
    scanDigitsW T neg b (encodes e cps) = (scanDigitsW T neg b cps).map fun r => (r.1, encodes e r.2) := by
  unfold scanDigitsW
  rw [(digitRun_encodes e b cps h).1, (digitRun_encodes e b cps h).2]
  repeat' split
  all_goals rfl

theorem hasPrefix_encodes (e : Enc) (lo up b : Nat) (hlo : lo ≤ 127) (hup : up ≤ 127) (cps : List Nat) (h : ∀ cp ∈ cps, IsScalar cp) :
    (HasPrefix lo up b (encodes e cps) ↔ HasPrefix lo up b cps) ∧
      (HasPrefix lo up b cps → (encodes e cps).drop 2 = encodes e (cps.drop 2)) := by
  cases cps with
  | nil => exact ⟨Iff.rfl, fun h => h.elim⟩
  | cons c cs =>
    rcases (encodes_cases e c cs (h c (by simp))).symm with ⟨hc, u, us, hu, hE⟩ | ⟨hc, hE⟩
    · rw [hE]
      have h1 : ¬ HasPrefix lo up b (u :: us) := by
        intro hh; unfold HasPrefix at hh; split at hh
        · rename_i heq; simp only [List.cons.injEq] at heq; omega
        · exact hh
      have h2 : ¬ HasPrefix lo up b (c :: cs) := by
        intro hh; unfold HasPrefix at hh; split at hh
        · rename_i heq; simp only [List.cons.injEq] at heq; omega
        · exact hh
      exact ⟨by simp [h1, h2], fun hh => absurd hh h2⟩
    rw [hE]
    cases cs with
    | nil => exact ⟨Iff.rfl, fun h => h.elim⟩
    | cons d ds =>
      rcases (encodes_cases e d ds (h d (by simp))).symm with ⟨hd, u, us, hu, hE2⟩ | ⟨hd, hE2⟩
      · rw [hE2]
        have h1 : ¬ HasPrefix lo up b (c :: u :: us) := by
          intro hh; unfold HasPrefix at hh; split at hh
          · rename_i heq; simp only [List.cons.injEq] at heq; omega
          · exact hh
        have h2 : ¬ HasPrefix lo up b (c :: d :: ds) := by
          intro hh; unfold HasPrefix at hh; split at hh
          · rename_i heq; simp only [List.cons.injEq] at heq; omega
          · exact hh
        exact ⟨by simp [h1, h2], fun hh => absurd hh h2⟩
      rw [hE2]
      refine ⟨?_, fun _ => rfl⟩
      cases ds with
      | nil => exact Iff.rfl
      | cons x xs =>
        rcases encodes_cases e x xs (h x (by simp)) with ⟨hx, hE3⟩ | ⟨hx, u, us, hu, hE3⟩
        · rw [hE3]; exact Iff.rfl
        · rw [hE3]
          have h1 := not_digit_big b x hx
          have h2 := not_digit_big b u hu
          simp [HasPrefix, h1, h2]

theorem chooseBase_encodes (e : Enc) (base : Nat) (cps : List Nat) (h : ∀ cp ∈ cps, IsScalar cp) :
    chooseBase base (encodes e cps) = ((chooseBase base cps).1, encodes e (chooseBase base cps).2) := by
  obtain ⟨x1, x2⟩ := hasPrefix_encodes e 120 88 16 (by decide) (by decide) cps h
  obtain ⟨b1, b2⟩ := hasPrefix_encodes e 98 66 2 (by decide) (by decide) cps h
  obtain ⟨o1, o2⟩ := hasPrefix_encodes e 111 79 8 (by decide) (by decide) cps h
  have hz : (encodes e cps).head? = some 48 ↔ cps.head? = some 48 := by
    cases cps with
    | nil => rfl
    | cons c cs =>
      rcases encodes_cases e c cs (h c (by simp)) with ⟨hc, hE⟩ | ⟨hc, u, us, hu, hE⟩
      · rw [hE]; rfl
      · rw [hE]; simp only [List.head?_cons, Option.some.injEq]; omega
  unfold chooseBase
  simp only [x1, b1, o1, hz]
  by_cases hx : HasPrefix 120 88 16 cps <;> by_cases hb : HasPrefix 98 66 2 cps <;> by_cases ho : HasPrefix 111 79 8 cps <;>
    simp only [hx, hb, ho, if_true, if_false] <;> repeat' split
  all_goals first | rfl | rw [x2 hx] | rw [b2 hb] | rw [o2 ho]

theorem chooseBase_suffix (base : Nat) (t : List Nat) : (chooseBase base t).2 <:+ t := by
  unfold chooseBase
  repeat' split
  all_goals first | exact List.suffix_refl _ | exact List.drop_suffix _ _

theorem scanIntW_encodes (e : Enc) (T : IntTy) (base : Nat) (uo : Bool) (cps : List Nat) (h : ∀ cp ∈ cps, IsScalar cp) :
    scanIntW T base uo (encodes e cps) = (scanIntW T base uo cps).map fun r => (r.1, encodes e r.2) := by
  cases cps with
  | nil => rfl
  | cons c cs =>
    have hcs : ∀ cp ∈ cs, IsScalar cp := fun x hx => h x (List.mem_cons_of_mem _ hx)
    have key : ∀ t : List Nat, (∀ cp ∈ t, IsScalar cp) → ∀ neg,
        scanDigitsW T neg (chooseBase base (encodes e t)).1 (chooseBase base (encodes e t)).2 =
          (scanDigitsW T neg (chooseBase base t).1 (chooseBase base t).2).map fun r => (r.1, encodes e r.2) := by
      intro t ht neg
      rw [chooseBase_encodes e base t ht]
      exact scanDigitsW_encodes e T neg _ _ (fun x hx => ht x ((chooseBase_suffix base t).subset hx))
    rcases encodes_cases e c cs (h c (by simp)) with ⟨hc, hE⟩ | ⟨hc, u, us, hu, hE⟩
    · have hcons := key (c :: cs) h
      rw [hE] at hcons ⊢
      unfold scanIntW
      dsimp only
      by_cases hs : c = 45 ∨ c = 43
      · simp only [if_pos hs]
        split
        · rfl
        · exact key cs hcs _
      · simp only [if_neg hs]
        split
        · rfl
        · exact hcons _
    · have hcons := key (c :: cs) h
      rw [hE] at hcons ⊢
      unfold scanIntW
      dsimp only
      rw [if_neg (by omega : ¬ (u = 45 ∨ u = 43)), if_neg (by omega : ¬ (c = 45 ∨ c = 43))]
      have e1 : (u == 45) = false := by rw [beq_eq_false_iff_ne]; omega
      have e2 : (c == 45) = false := by rw [beq_eq_false_iff_ne]; omega
      rw [e1, e2, if_neg (by simp), if_neg (by simp)]
      exact hcons _

theorem scanIntW_suffix {T : IntTy} {base : Nat} {uo : Bool} {s r : List Nat} {v : Int}
    (h : scanIntW T base uo s = .ok (v, r)) : r <:+ s := by
  cases s with
  | nil => cases h
  | cons c cs =>
    simp only [scanIntW] at h
    split at h
    · cases h
    · have hr := scanDigitsW_rest h
      have h1 : r <:+ (chooseBase base (if c = 45 ∨ c = 43 then cs else c :: cs)).2 := by
        simp only at hr
        rw [hr]; exact List.dropWhile_suffix _
      refine h1.trans ((chooseBase_suffix _ _).trans ?_)
      split
      · exact List.suffix_cons _ _
      · exact List.suffix_refl _

theorem intReader_whole (e : Enc) (T : IntTy) (hT : T.Std) (base : Nat) (uo : Bool)
    (hbase : base = 0 ∨ (2 ≤ base ∧ base ≤ 36)) :
    Whole e (fun cp => IsScalar cp ∧ cp ≠ 16) (intReader e T base uo).read (scanIntW T base uo) where
  read l cps h _ := by
    have hs : ∀ cp ∈ cps, IsScalar cp := fun x hx => (h x hx).1
    rw [intReader]
    dsimp only
    rw [readInt_W _ T hT base uo _ hbase, scanIntW_encodes e T base uo cps hs]
    · intro _ _ hh
      have hmem : (16 : Nat) ∈ encodes e cps := by
        cases hE : encodes e cps with
        | nil => rw [hE] at hh; cases hh
        | cons u us =>
          rw [hE, afterSign] at hh
          split at hh
          · cases us with
            | nil => cases hh
            | cons w ws => simp only [List.head?_cons, Option.some.injEq] at hh; simp [hh]
          · simp only [List.head?_cons, Option.some.injEq] at hh; simp [hh]
      rw [encodes, List.mem_flatMap] at hmem
      obtain ⟨cp, h1, h2⟩ := hmem
      exact (h cp h1).2 (encode_mem_ascii e cp 16 (hs cp h1) h2 (by decide))
    · intro he
      have he : e = .utf8 := by simpa using he
      subst he
      exact utf8s_bytes cps hs
  scalar _ h := h.1
  suffix _ _ _ h := scanIntW_suffix h

theorem takeWhile_read (e : Enc) (p : Nat → Bool) (cps : List Nat) (h : ∀ cp ∈ cps, IsScalar cp) :
    readString e e (encodes e cps) (encodes e (cps.dropWhile p)) =
      .ok (encodes e (cps.takeWhile p), encodes e (cps.dropWhile p)) := by
  conv => lhs; arg 3; rw [← List.takeWhile_append_dropWhile (p := p) (l := cps)]
  exact readString_encodes e _ _ (fun x hx => h x (mem_takeWhile hx).1)

/-- A unit inside an encoded character does not start one. -/
theorem encode_tail_head (e : Enc) (cp f u : Nat) (h : IsScalar cp) (hf : IsScalar f) (hu : u ∈ (encode e cp).tail) :
    (encode e f).head? ≠ some u := by
  obtain ⟨h1, h2⟩ := h
  obtain ⟨f1, f2⟩ := hf
  cases e with
  | utf8 =>
    have hb : 128 ≤ u ∧ u < 192 := by
      simp only [encode] at hu
      rcases utf8_cases cp with ⟨_, hx⟩ | ⟨_, hx⟩ | ⟨_, hx⟩ | ⟨_, hx⟩ <;> rw [hx] at hu <;> simp at hu <;> omega
    simp only [encode]
    rcases utf8_cases f with ⟨_, hx⟩ | ⟨_, hx⟩ | ⟨_, hx⟩ | ⟨_, hx⟩ <;> rw [hx] <;> simp <;> omega
  | utf16 =>
    simp only [encode, utf16] at hu ⊢
    split at hu
    · simp at hu
    · simp at hu
      split <;> simp <;> omega
  | utf32 => simp [encode] at hu

theorem readUntilUnits_inside (needle us rest : List Nat) (h : ∀ u ∈ us, needle.head? ≠ some u) (hn : needle ≠ []) :
    readUntilUnits needle (us ++ rest) = readUntilUnits needle rest := by
  induction us with
  | nil => rfl
  | cons u us ih =>
    rw [List.cons_append, readUntilUnits, if_neg, ih (fun x hx => h x (by simp [hx]))]
    intro hp
    rw [List.isPrefixOf_iff_prefix] at hp
    obtain ⟨t, ht⟩ := hp
    cases needle with
    | nil => exact hn rfl
    | cons a as =>
      rw [List.cons_append] at ht
      exact h u (by simp) (by rw [(List.cons.inj ht).1]; rfl)

theorem readUntilUnits_encodes (e : Enc) (f : Nat) (hf : IsScalar f) (cps : List Nat) (h : ∀ cp ∈ cps, IsScalar cp) :
    readUntilUnits (encode e f) (encodes e cps) = encodes e (cps.dropWhile (· != f)) := by
  induction cps with
  | nil => rfl
  | cons cp cps ih =>
    have hcp := h cp (by simp)
    have ih := ih (fun x hx => h x (by simp [hx]))
    have hiff := encode_prefix_iff e f cp hf hcp (encodes e cps)
    obtain ⟨c, cs, hc⟩ := encode_cons e cp
    by_cases hx : cp = f
    · rw [List.dropWhile_cons_of_neg (by simpa using hx), encodes_cons]
      have hp := hiff.mpr hx.symm
      rw [hc, List.cons_append] at hp ⊢
      rw [readUntilUnits, if_pos (List.isPrefixOf_iff_prefix.mpr hp)]
    · rw [List.dropWhile_cons_of_pos (by simpa using hx), ← ih, encodes_cons]
      have hp : ¬ encode e f <+: encode e cp ++ encodes e cps := fun hh => hx (hiff.mp hh).symm
      have ht := fun u => encode_tail_head e cp f u hcp hf
      rw [hc, List.cons_append] at hp ⊢
      rw [hc, List.tail_cons] at ht
      rw [readUntilUnits, if_neg (fun hh => hp (List.isPrefixOf_iff_prefix.mp hh))]
      exact readUntilUnits_inside _ cs _ (fun u hu => ht u hu) (encode_ne_nil e f)

theorem dropWhile_until_single (e : Enc) (f u : Nat) (hf : IsScalar f) (hu : encode e f = [u]) (cps : List Nat)
    (h : ∀ cp ∈ cps, IsScalar cp) : readUntilUnit (fun c => c == u) (encodes e cps) = encodes e (cps.dropWhile (· != f)) := by
  rw [← readUntilUnits_encodes e f hf cps h, hu]
  induction encodes e cps with
  | nil => rfl
  | cons c cs ih =>
    unfold readUntilUnit at *
    rw [readUntilUnits]
    by_cases hc : c = u
    · subst hc; rw [List.dropWhile_cons_of_neg (by simp), if_pos (by simp)]
    · rw [List.dropWhile_cons_of_pos (by simpa using hc), ih, if_neg]
      simp only [List.isPrefixOf_cons_cons, Bool.and_eq_true, beq_iff_eq]
      exact fun hh => hc hh.1.symm

/-- What a string field of this kind stops at. `set` is the set of a `[...]` field. -/
def kindStops (k : StrKind) (f : Nat) (set : Nat → Bool) : Nat → Bool :=
  match k with
  | .word => isSpace
  | .customWord => fun c => c == f
  | .character => fun _ => false
  | .characterSet => fun c => ! set c

theorem stringReader_whole (e : Enc) (sp : Specs) (F : PaddedField) (hF : Describes e sp F) (k : StrKind)
    (set : Nat → Bool)
    (hset : k = .characterSet → ∃ t : SetText, t.Ok ∧ SetSpecs e t sp ∧ (fun x => codeListed t x != t.inverted) = set)
    (hchar : k = .character → sp.precision ≠ 0) :
    Whole e IsScalar (stringReader e e sp k).read
      (fun cps =>
        if k = .characterSet ∧ cps.takeWhile set = [] then .err .invalidScannedValue
        else .ok (encodes e (cps.takeWhile fun c => ! kindStops k F.fill set c), cps.dropWhile fun c => ! kindStops k F.fill set c)) where
  read l cps h hl := by
    cases k with
    | word =>
      simp only [stringReader, readWord, kindStops]
      rw [readUntilSpace_encodes e l cps h hl]
      simp only [if_neg (by simp : ¬ (StrKind.word = StrKind.characterSet ∧ cps.takeWhile set = []))]
      exact takeWhile_read e _ cps h
    | customWord =>
      simp only [stringReader, readCustomWord, kindStops, hF.fill]
      rw [if_neg (by simp)]
      have hb : (fun c => ! (c == F.fill)) = (· != F.fill) := rfl
      rw [hb]
      split
      · rename_i u hu
        rw [dropWhile_until_single e F.fill u hF.scalar hu cps h]
        exact takeWhile_read e _ cps h
      · rw [readUntilUnits_encodes e F.fill hF.scalar cps h]
        exact takeWhile_read e _ cps h
    | character =>
      have hp := hchar rfl
      simp only [stringReader, readCharacters, kindStops, readAll]
      rw [if_pos (by simpa using hp), if_neg (by simp)]
      have h1 := readString_encodes e cps [] h
      rw [List.append_nil, encodes_nil] at h1
      rw [h1]
      have h2 : cps.takeWhile (fun _ => ! false) = cps := by
        clear hl h1 h; induction cps with
        | nil => rfl
        | cons c cs ih => rw [List.takeWhile_cons_of_pos rfl, ih]
      have h3 : cps.dropWhile (fun _ => ! false) = [] := (dropWhile_nil_iff _ _).mpr h2
      rw [h2, h3]; rfl
    | characterSet =>
      obtain ⟨t, ht, hs, rfl⟩ := hset rfl
      simp only [stringReader, readCharset, kindStops, Bool.not_not]
      rw [charsetSource_spec e t ht sp hs cps h]
      by_cases hn : cps.takeWhile (fun x => codeListed t x != t.inverted) = []
      · rw [if_pos hn, if_pos ⟨trivial, hn⟩]; rfl
      · rw [if_neg hn, if_neg (fun hh => hn hh.2)]
        exact takeWhile_read e _ cps h
  scalar _ h := h
  suffix cps v r h := by
    split at h
    · cases h
    · simp only [Res.ok.injEq, Prod.mk.injEq] at h
      rw [← h.2]; exact List.dropWhile_suffix _

end Scn
