import Verif.Lemmas.History
import Verif.Lemmas.IntScan
/-
Readers move forward: the integer reader and the whitespace search leave a suffix of the source,
and on sources of code units they are never outside their preconditions. Hence the hypotheses
`EnvOk` and `Advancing` of the driver's theorems hold for `intArgs`.
-/
namespace Scn
open Spec

/-! ### Whitespace search -/

theorem findInner_suffix (cpCb : Nat → Bool) (n : Nat) :
    ∀ (i k : Nat) (it : List Nat) (b : Bool) (r : List Nat), findInner cpCb n i k it = some (b, r) → r <:+ it := by
  induction n with
  | zero => intro i k it b r h; simp [findInner] at h
  | succ n ih =>
    intro i k it b r h
    simp only [findInner] at h
    split at h
    · split at h
      · exact absurd h (by simp)
      · rename_i r' cp hg
        split at h
        · simp at h; rw [h.2]; exact List.suffix_refl _
        · exact (ih _ _ _ _ _ h).trans (getNext_suffix hg).1
    · simp at h; rw [h.2]; exact List.suffix_refl _

theorem findClassicAux_suffix (cu cp : Nat → Bool) (n : Nat) :
    ∀ (it r : List Nat), findClassicAux cu cp n it = some r → r <:+ it := by
  induction n with
  | zero =>
    intro it r h
    cases it with
    | nil => simp [findClassicAux] at h; rw [h]; exact List.suffix_refl _
    | cons => simp [findClassicAux] at h
  | succ n ih =>
    intro it r h
    cases it with
    | nil => simp [findClassicAux] at h; rw [h]; exact List.suffix_refl _
    | cons c cs =>
      simp only [findClassicAux] at h
      split at h
      · split at h
        · simp only [Option.some.injEq] at h; rw [← h]; exact List.drop_suffix _ _
        · exact (ih _ _ h).trans (List.drop_suffix _ _)
      · split at h
        · exact absurd h (by simp)
        · rename_i it' hi
          simp only [Option.some.injEq] at h; rw [← h]; exact findInner_suffix _ _ _ _ _ _ _ hi
        · rename_i it' hi
          exact (ih _ _ h).trans (findInner_suffix _ _ _ _ _ _ _ hi)

theorem readUntilCpAux_suffix (e : Enc) (pred : Nat → Bool) (n : Nat) :
    ∀ (s r : List Nat), readUntilCpAux e pred n s = some r → r <:+ s := by
  induction n with
  | zero =>
    intro s r h
    cases s with
    | nil => simp [readUntilCpAux] at h; rw [h]; exact List.suffix_refl _
    | cons => simp [readUntilCpAux] at h
  | succ n ih =>
    intro s r h
    cases s with
    | nil => simp [readUntilCpAux] at h; rw [h]; exact List.suffix_refl _
    | cons c cs =>
      simp only [readUntilCpAux] at h
      split at h
      · exact absurd h (by simp)
      · rename_i r' u hr
        split at h
        · exact (ih _ _ h).trans (readCpInto_suffix hr)
        · split at h
          · exact absurd h (by simp)
          · split at h
            · simp only [Option.some.injEq] at h; rw [h]; exact List.suffix_refl _
            · exact (ih _ _ h).trans (readCpInto_suffix hr)

theorem readWhileSpace_suffix (e : Enc) (l : Layout) (s r : List Nat) (h : readWhileSpace e l s = some r) :
    r <:+ s := by
  unfold readWhileSpace at h
  split at h
  · exact findClassicAux_suffix _ _ _ _ _ h
  · dsimp only at h
    split at h
    · exact absurd h (by simp)
    · split at h
      · simp only [Option.some.injEq] at h; rw [← h]; exact List.drop_suffix _ _
      · exact readUntilCpAux_suffix _ _ _ _ _ h
  · exact readUntilCpAux_suffix _ _ _ _ _ h

/-! ### The integer reader -/

theorem readMatchingNocase_suffix {k : Src} {s str r : List Nat} (h : readMatchingNocase k s str = some r) :
    r <:+ s := by
  unfold readMatchingNocase at h
  split at h
  · exact absurd h (by simp)
  · split at h
    · split at h
      · simp only [Option.some.injEq] at h; rw [← h]; exact List.drop_suffix _ _
      · exact absurd h (by simp)
    · split at h
      · simp only [Option.some.injEq] at h; rw [← h]; exact List.drop_suffix _ _
      · exact absurd h (by simp)

theorem octPrefix_suffix {k : Src} {s r : List Nat} {z : Bool} (h : octPrefix k s = some (r, z)) : r <:+ s := by
  unfold octPrefix at h
  split at h
  · rename_i hm
    simp at h; rw [← h.1]; exact readMatchingNocase_suffix hm
  · split at h
    · split at h
      · simp at h; rw [← h.1]; exact List.suffix_cons _ _
      · exact absurd h (by simp)
    · exact absurd h (by simp)

theorem basePrefix_suffix (k : Src) (s : List Nat) (base : Nat) :
    (basePrefix k s base).1 <:+ s ∧
      (base = 0 ∨ (2 ≤ base ∧ base ≤ 36) → 2 ≤ (basePrefix k s base).2.1 ∧ (basePrefix k s base).2.1 ≤ 36) := by
  unfold basePrefix
  have hb : (binPrefix k s).getD s <:+ s := by
    cases h : binPrefix k s with
    | none => exact List.suffix_refl _
    | some r => exact readMatchingNocase_suffix h
  have hx : (hexPrefix k s).getD s <:+ s := by
    cases h : hexPrefix k s with
    | none => exact List.suffix_refl _
    | some r => exact readMatchingNocase_suffix h
  split
  · exact ⟨hb, fun _ => by simp⟩
  · split
    · split
      · rename_i h; exact ⟨octPrefix_suffix h, fun _ => by simp⟩
      · exact ⟨List.suffix_refl _, fun _ => by simp⟩
    · split
      · exact ⟨hx, fun _ => by simp⟩
      · split
        · unfold basePrefixDetect
          split
          · rename_i h; exact ⟨readMatchingNocase_suffix h, fun _ => by simp⟩
          · split
            · rename_i h; exact ⟨readMatchingNocase_suffix h, fun _ => by simp⟩
            · split
              · rename_i h; exact ⟨octPrefix_suffix h, fun _ => by simp⟩
              · exact ⟨List.suffix_refl _, fun _ => by simp⟩
        · exact ⟨List.suffix_refl _, fun h => by dsimp only; omega⟩

theorem parseIntegerPrefix_suffix {k : Src} {s : List Nat} {base : Nat} {p : PrefixResult}
    (h : parseIntegerPrefix k s base = some p) :
    p.rest <:+ s ∧ (base = 0 ∨ (2 ≤ base ∧ base ≤ 36) → 2 ≤ p.base ∧ p.base ≤ 36) := by
  unfold parseIntegerPrefix at h
  split at h
  · exact absurd h (by simp)
  · rename_i t sign hs
    have ht : t <:+ s := by
      unfold parseNumericSign at hs
      split at hs
      · exact absurd hs (by simp)
      · split at hs
        · simp at hs; rw [← hs.1]; exact List.suffix_cons _ _
        · split at hs
          · simp at hs; rw [← hs.1]; exact List.suffix_cons _ _
          · simp at hs; rw [← hs.1]; exact List.suffix_refl _
    obtain ⟨h1, h2⟩ := basePrefix_suffix k t base
    generalize basePrefix k t base = q at h h1 h2
    obtain ⟨d, b, z⟩ := q
    dsimp only at h h1 h2
    repeat' split at h
    all_goals
      simp only [Option.some.injEq] at h
      rw [← h]
    · exact ⟨ht, h2⟩
    · exact ⟨h1.trans ht, h2⟩
    · exact ⟨ht, h2⟩
    · exact ⟨h1.trans ht, h2⟩

theorem readInt_suffix {k : Src} {T : IntTy} {sp : IntSpecs} {s r : List Nat} {v : Int}
    (h : readInt k T sp s = .ok (v, r)) : r <:+ s := by
  unfold readInt at h
  split at h
  · exact absurd h (by simp)
  · rename_i p hp
    have hs := (parseIntegerPrefix_suffix hp).1
    split at h
    · exact absurd h (by simp)
    · split at h
      · simp at h; rw [← h.2]; exact (List.tail_suffix _).trans hs
      · split at h
        · cases hd : digitsWithoutThsep k p.rest p.base with
          | ub => rw [hd] at h; simp [Res.bind] at h
          | err e => rw [hd] at h; simp [Res.bind] at h
          | ok buf =>
            rw [hd] at h
            simp only [Res.bind] at h
            cases hv : parseIntegerValue k.narrow T p.sign p.base buf with
            | ub => rw [hv] at h; simp at h
            | err e => rw [hv] at h; simp at h
            | ok x => rw [hv] at h; simp at h; rw [← h.2]; exact (List.drop_suffix _ _).trans hs
        · dsimp only at h
          split at h
          · exact absurd h (by simp)
          · rename_i ds _
            cases hv : parseIntegerValue k.narrow T p.sign p.base (thsepLoop (by assumption) p.base p.rest).2.1 with
            | ub => rw [hv] at h; simp [Res.bind] at h
            | err e => rw [hv] at h; simp [Res.bind] at h
            | ok x => rw [hv] at h; simp [Res.bind] at h; rw [← h.2]; exact (List.drop_suffix _ _).trans hs

theorem digitsWithoutThsep_ok (k : Src) (s : List Nat) (base : Nat) :
    digitsWithoutThsep k s base ≠ .ub ∧
      ∀ buf, digitsWithoutThsep k s base = .ok buf → buf ≠ [] ∧ ∀ c ∈ buf, c ∈ s := by
  unfold digitsWithoutThsep
  split
  · cases s with
    | nil => simp
    | cons c cs => simp
  · have hm := List.takeWhile_sublist (l := s) (fun c => decide (charToInt c < base))
    split
    · simp
    · rename_i h
      refine ⟨by simp, ?_⟩
      intro buf hb
      simp only [Res.ok.injEq] at hb
      subst hb
      exact ⟨by simpa using h, fun c hc => hm.subset hc⟩

/-- The integer reader is defined on every source of code units, for types up to 32 bits and any
    presentation without a thousands separator. -/
theorem readInt_defined (k : Src) (T : IntTy) (hT : T.bits = 8 ∨ T.bits = 16 ∨ T.bits = 32) (base : Nat) (uo : Bool)
    (s : List Nat) (hbase : base = 0 ∨ (2 ≤ base ∧ base ≤ 36)) (hbytes : k.narrow = true → ∀ c ∈ s, c < 256) :
    readInt k T ⟨base, uo, none⟩ s ≠ .ub := by
  have hstd : T.Std := by
    rcases hT with h | h | h
    · exact Or.inl h
    · exact Or.inr (Or.inl h)
    · exact Or.inr (Or.inr (Or.inl h))
  unfold readInt
  split
  · simp
  · rename_i p hp
    obtain ⟨hs, hb⟩ := parseIntegerPrefix_suffix hp
    obtain ⟨h2, h36⟩ := hb hbase
    split
    · simp
    · rename_i hsg
      split
      · simp
      · dsimp only
        obtain ⟨hd1, hd2⟩ := digitsWithoutThsep_ok k p.rest p.base
        cases hd : digitsWithoutThsep k p.rest p.base with
        | ub => exact absurd hd hd1
        | err e => simp [Res.bind]
        | ok buf =>
          obtain ⟨hne, hmem⟩ := hd2 buf hd
          have hpv := scanDigits_of_good k.narrow T hstd p.sign p.base h2 h36 (by
              intro hf
              cases hsgn : p.sign with
              | plus => rfl
              | minus => exact absurd ⟨hsgn, Or.inl hf⟩ hsg)
            (good_upto32 T hT p.base h2 h36 _) buf hne (fun hn c hc => hbytes hn c (hs.subset (hmem c hc)))
          simp only [Res.bind, hpv]
          have hsd : ∀ neg b t, scanDigits T neg b t ≠ .ub := by
            intro neg b t
            unfold scanDigits
            repeat' split
            all_goals simp
          cases hx : scanDigits T (p.sign = .minus) p.base buf with
          | ub => exact absurd hx (hsd _ _ _)
          | err e => simp
          | ok x => simp

/-! ### `intArgs` -/

theorem readIntArg_suffix {sp : IntSpecs} {s r : List Nat} {v : Int} (h : readIntArg sp s = .ok (v, r)) : r <:+ s := by
  unfold readIntArg skipSpace at h
  split at h
  · simp [Res.bind] at h
  · rename_i it hi
    split at h
    · simp [Res.bind] at h
    · simp only [Res.bind] at h
      exact (readInt_suffix h).trans (readWhileSpace_suffix _ _ _ _ hi)

theorem readIntArg_defined (base : Nat) (hbase : base = 0 ∨ (2 ≤ base ∧ base ≤ 36)) (s : List Nat)
    (hs : ∀ c ∈ s, c < 256) : readIntArg ⟨base, false, none⟩ s ≠ .ub := by
  unfold readIntArg skipSpace
  obtain ⟨p, hp, hps⟩ := readWhileSpace_total .utf8 s (fun _ => hs)
  rw [hp]
  dsimp only
  split
  · simp [Res.bind]
  · simp only [Res.bind]
    exact readInt_defined _ _ (by decide) _ _ _ hbase (fun _ c hc => hs c (hps.subset hc))

theorem demoBase_ok (p : Pres) : demoBase p = 0 ∨ (2 ≤ demoBase p ∧ demoBase p ≤ 36) := by
  cases p <;> decide

/-- Sources of bytes. -/
def Bytes (s : List Nat) : Prop := ∀ c ∈ s, c < 256

theorem intArgs_ok (tys : List ArgTy) (h : ∀ t ∈ tys, t.category ≠ none) (fmt : List Nat) : EnvOk (intArgs tys) Bytes fmt where
  down s t hs ht := fun c hc => hs c (ht.subset hc)
  skip s hs := readWhileSpace_total .utf8 s (fun _ => hs)
  dflt _ s _ hs := ⟨readIntArg_defined 10 (by decide) s hs, fun _ _ h => readIntArg_suffix h⟩
  specs _ _ setter _ s _ _ _ _ hs := ⟨readIntArg_defined _ (demoBase_ok setter.specs.type) s hs, fun _ _ h => readIntArg_suffix h⟩
  custom _ pos s _ _ := by simp [intArgs]
  types id hid := Or.inl <| by
    have hid' : id < tys.length := hid
    show (tys.getD id .none).category ≠ none
    rw [List.getD_eq_getElem?_getD, List.getElem?_eq_getElem hid']
    exact h _ (List.getElem_mem hid')

theorem intArgs_advancing (tys : List ArgTy) : Advancing (intArgs tys) where
  skip _ _ h := readWhileSpace_suffix .utf8 .contiguous _ _ h
  dflt _ _ _ _ h := readIntArg_suffix h
  specs _ _ _ _ _ h := readIntArg_suffix h
  custom _ _ _ _ _ h := by simp [intArgs] at h

end Scn
