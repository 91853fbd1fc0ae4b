import Verif.Props.Zones
import Verif.Lemmas.DateRead
/-
Property C86, the converse: a text that `%.S` accepts is a number of seconds, a decimal point and a fraction.
-/
namespace Scn
open Spec

/-- A text that shows seconds with a fraction: white space, one or two digits that are at most 60, the decimal point and the longest
    run of digits, of which there is at least one. -/
def Spec.FractionWritten (v : Nat) (ds src rest : List Nat) : Prop :=
  ∃ ws sec, src = ws ++ (sec ++ 46 :: (ds ++ rest)) ∧ Spaces ws ∧ Digits 1 2 v sec (fun u => u = 46 :: (ds ++ rest)) ∧ v ≤ 60 ∧
    ds ≠ [] ∧ (∀ c ∈ ds, decDigit c = true) ∧ ∀ c, rest.head? = some c → decDigit c = false

theorem onSubsecond_shown {cfg : ChronoCfg} (hc : ScansSets cfg) {r r' : Rd DateTime} {u : List Nat} (hu : ∀ c ∈ u, IsScalar c)
    (hr : r.pos = encodes cfg.enc u) (h : r.onSubsecond cfg dtSetter .standard = some r') (he : r'.err = none) :
    ∃ sec ds rest, u = sec ++ 46 :: (ds ++ rest) ∧ Digits 1 2 (value 10 sec) sec (fun u => u = 46 :: (ds ++ rest)) ∧ value 10 sec ≤ 60 ∧
      ds ≠ [] ∧ (∀ c ∈ ds, decDigit c = true) ∧ (∀ c, rest.head? = some c → decDigit c = false) ∧ cfg.subsec ds = .ok () := by
  unfold Rd.onSubsecond at h
  dsimp only at h
  have hk : ∀ (r : Rd DateTime) v e, r.err = some e → (dtSetter.sec r v).err = some e := fun r v e h => ((setterOk_dt cfg false).err e).sec r v h
  have hpos : ∀ (r : Rd DateTime) v, (dtSetter.sec r v).pos = r.pos := fun r v => (keepsPos_dt.sec r v).1
  have hse : ∀ (r : Rd DateTime) e, (r.setError e).err ≠ none := fun r e => setError_err r e
  have huse : (r.number 1 2 dtSetter.sec).useLocale .standard = false := by simp [Rd.useLocale]
  generalize hm : r.number 1 2 dtSetter.sec = m at h huse
  rw [huse] at h
  simp only [Bool.false_eq_true, if_false] at h
  split at h
  · cases h; exact absurd he (hse _ _)
  rename_i c q hq
  split at h
  · cases h; exact absurd he (hse _ _)
  rename_i hc46
  have hc46 : c = 46 := Decidable.not_not.1 hc46
  subst hc46
  split at h
  · cases h
  · cases h; exact absurd he (hse _ _)
  rename_i ds p hscan
  split at h
  · cases h; exact absurd he (hse _ _)
  split at h
  · cases h
  · cases h; exact absurd he (hse _ _)
  rename_i hconv
  cases h
  have hme : m.err = none := (mark_err he).1
  subst hm
  obtain ⟨v, q', h1, h2, h3, h4⟩ := number_shown hk hpos hu hr hme
  have hq' : ∀ c ∈ q', IsScalar c := fun c hc => hu c (by rw [h1]; simp [hc])
  rw [h2] at hq
  obtain ⟨q'', hqq, rfl⟩ := encodes_peel_ascii (w := [46]) hq' (by decide) hq
  have hqq : q' = 46 :: q'' := hqq
  subst hqq
  have hq2 : ∀ c ∈ q'', IsScalar c := fun c hc => hq' c (by simp [hc])
  rw [digit_scan hc q'' hq2] at hscan
  split at hscan
  · cases hscan
  rename_i hne
  cases hscan
  have hcat : q''.takeWhile decDigit ++ q''.dropWhile decDigit = q'' := List.takeWhile_append_dropWhile
  refine ⟨v, q''.takeWhile decDigit, q''.dropWhile decDigit, ?_, ?_, ?_, hne, fun c hc => all_takeWhile _ hc, ?_, hconv⟩
  · rw [hcat]; exact h1
  · rw [hcat]; exact h3
  · have := (inRange_dt.sec _ _ h4).2; omega
  · intro c hc
    have := List.head?_dropWhile_not decDigit q''
    rw [hc] at this
    simpa using this

/-- C86. `%.S` accepts exactly the texts that show seconds with a fraction, the decimal point included, stores the two numbers, and leaves
    what follows. The conversion of the digits of the fraction into a number is not modelled (`cfg.subsec`). -/
theorem C86_fraction_exact_partial (cfg : ChronoCfg) (hl : GoodLayouts cfg.enc cfg.lay) (hc : ScansSets cfg) (gmtoff : Bool) (d d' : DateTime)
    (src r out : List Nat) (hs : ∀ c ∈ src, IsScalar c) :
    chronoCustom cfg gmtoff .components dtSetter d (37 :: 46 :: 83 :: 125 :: r) (encodes cfg.enc src) = (125 :: r, .ok (d', out)) ↔
      ∃ v ds rest, FractionWritten v ds src rest ∧ cfg.subsec ds = .ok () ∧ d' = { d with sec := some (v : Int), subsec := some ds } ∧
        out = encodes cfg.enc rest := by
  have fwd : ∀ v ds rest, FractionWritten v ds src rest → cfg.subsec ds = .ok () →
      chronoCustom cfg gmtoff .components dtSetter d (37 :: 46 :: 83 :: 125 :: r) (encodes cfg.enc src) =
        (125 :: r, .ok ({ d with sec := some (v : Int), subsec := some ds }, encodes cfg.enc rest)) := by
    rintro v ds rest ⟨ws, sec, rfl, hw, hsec, hv, hne, hds, hend⟩ hconv
    exact C86_fraction_partial cfg hl hc gmtoff d ws sec ds rest r v hw hsec hv hne hds hconv (fun c hc => hs c (by simp [hc])) hend
  constructor
  · intro h
    suffices hx : ∃ v ds rest, FractionWritten v ds src rest ∧ cfg.subsec ds = .ok () by
      obtain ⟨v, ds, rest, h1, h2⟩ := hx
      have := fwd v ds rest h1 h2
      rw [h] at this
      injection this with _ this
      injection this with this
      injection this with h3 h4
      exact ⟨v, ds, rest, h1, h2, h3, h4⟩
    unfold chronoCustom at h
    rw [chronoParse_fraction] at h
    have h := (Prod.mk.inj h).2
    obtain ⟨rr, ⟨p, p', hp, hparse, herr⟩, _, _⟩ := finished_of_ok h
    rw [skipSpace_encodes cfg.enc _ _ hs (hl _ hs)] at hp
    split at hp
    · cases hp
    have hp := (Res.ok.inj hp).symm
    have hsc : ∀ c ∈ src.dropWhile isSpace, IsScalar c := fun c hc => hs c (List.dropWhile_subset _ hc)
    rw [show parseChrono cfg.enc (readHandler cfg dtSetter) ⟨p, p, d, {}, none⟩ [37, 46, 83] =
      ((readHandler cfg dtSetter).call ⟨p, p, d, {}, none⟩ (.subsecond .standard)).bind
        fun st => if (readHandler cfg dtSetter).ok st then ((readHandler cfg dtSetter).call st .verify).map fun s => (s, []) else some (st, []) from rfl] at hparse
    obtain ⟨st, hst, hparse⟩ := Option.bind_eq_some_iff.1 hparse
    have hst : Rd.onSubsecond cfg dtSetter .standard ⟨p, p, d, {}, none⟩ = some st := hst
    have hse : st.err = none := by
      cases hx : st.err with
      | none => rfl
      | some e =>
        rw [if_neg (by show ¬ st.err.isNone = true; rw [hx]; simp)] at hparse
        cases hparse
        rw [herr] at hx; cases hx
    obtain ⟨sec, ds, rest, h1, h2, h3, h4, h5, h6, h7⟩ := onSubsecond_shown hc hsc hp hst hse
    refine ⟨value 10 sec, ds, rest, ⟨src.takeWhile isSpace, sec, ?_, ?_, h2, h3, h4, h5, h6⟩, h7⟩
    · rw [← h1]; exact List.takeWhile_append_dropWhile.symm
    · exact fun c hc => ⟨hs c (List.takeWhile_subset _ hc), all_takeWhile _ hc⟩
  · rintro ⟨v, ds, rest, h1, h2, rfl, rfl⟩
    exact fwd v ds rest h1 h2

/-- `{:%.S}` reads ` 07.125s`. -/
example : chronoCustom exSets false .components dtSetter {} [37, 46, 83, 125] [32, 48, 55, 46, 49, 50, 53, 115] =
    ([125], .ok ({ sec := some 7, subsec := some [49, 50, 53] }, [115])) :=
  (C86_fraction_exact_partial exSets (goodLayouts_contiguous _) exSets_scans false {} _ [32, 48, 55, 46, 49, 50, 53, 115] [] _ (by decide)).2
    ⟨7, [49, 50, 53], [115], ⟨[32], [48, 55], rfl, by unfold Spaces; decide, digits_pad2 (lo := 1) (n := 7) (by decide) (by decide) _, by decide, by decide, by decide, by decide⟩,
      rfl, rfl, rfl⟩

/-- `{:%.S}` does not accept `07,5`. -/
example (d' : DateTime) (out : List Nat) : chronoCustom exSets false .components dtSetter {} [37, 46, 83, 125] [48, 55, 44, 53] ≠ ([125], .ok (d', out)) := by
  intro h
  obtain ⟨v, ds, rest, ⟨ws, sec, h1, _⟩, _⟩ :=
    (C86_fraction_exact_partial exSets (goodLayouts_contiguous _) exSets_scans false {} d' [48, 55, 44, 53] [] out (by decide)).1 h
  have : 46 ∈ [48, 55, 44, 53] := by rw [h1]; simp
  revert this
  decide

end Scn
