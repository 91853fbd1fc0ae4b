import Verif.Lemmas.Chrono
import Verif.Lemmas.Ranges
/-
The reader of dates and times on texts that show values.
-/
namespace Scn
open Spec
variable {T : Type}

/-! ### Numbers -/

theorem isDigit10 {c : Nat} : IsDigit 10 c ↔ 48 ≤ c ∧ c ≤ 57 := by
  unfold IsDigit digit?
  constructor
  · rintro ⟨d, h1, h2⟩
    split at h1
    · assumption
    · split at h1
      · cases h1; omega
      · split at h1
        · cases h1; omega
        · cases h1
  · intro h
    exact ⟨c - 48, by rw [if_pos h], by omega⟩

theorem readTmDigits_numeral (k n acc : Nat) (t rest : List Nat) (ht : ∀ c ∈ t, IsDigit 10 c) (hk : t.length ≤ k)
    (hf : t.length = k ∨ NoDigitFirst 10 rest) :
    readTmDigits k n acc (t ++ rest) = (n + t.length, t.foldl (fun a c => a * 10 + (digit? c).getD 0) acc, rest) := by
  induction t generalizing k n acc with
  | nil =>
    cases k with
    | zero => rfl
    | succ k =>
      rw [List.nil_append]
      cases rest with
      | nil => rfl
      | cons c rest =>
        have hnd : ¬ IsDigit 10 c := by
          rcases hf with h | h
          · simp at h
          · exact h c rfl
        rw [isDigit10] at hnd
        rw [readTmDigits, if_pos (by omega)]
        rfl
  | cons c t ih =>
    obtain ⟨k, rfl⟩ : ∃ j, k = j + 1 := ⟨k - 1, by simp at hk; omega⟩
    have hc := isDigit10.1 (ht c (by simp))
    have hd : (digit? c).getD 0 = c - 48 := by unfold digit?; rw [if_pos hc]; rfl
    rw [List.cons_append, readTmDigits, if_neg (by omega), ih _ _ _ (fun x hx => ht x (by simp [hx])) (by simpa using hk)
      (by simpa using hf), List.foldl_cons, hd, List.length_cons]
    congr 1
    omega

theorem readUInt_digits {lo hi v : Nat} {t : List Nat} {f : List Nat → Prop} (h : Digits lo hi v t f) (e : Enc) (rest : List Nat)
    (hs : ∀ c ∈ rest, IsScalar c) (hf : f rest) (r : Rd T) (hr : r.pos = encodes e (t ++ rest)) :
    r.readUInt lo hi = ((v : Int), { r with pos := encodes e rest }) := by
  have ht : encodes e t = t := encodes_asciis e t fun c hc => by have := isDigit10.1 (h.digits c hc); omega
  have hd := readTmDigits_numeral hi 0 0 t (encodes e rest) h.digits h.high (by
    rcases h.follow rest hf with h | h
    · exact Or.inl h
    · exact Or.inr (noDigitFirst_encodes e 10 rest hs h))
  unfold Rd.readUInt
  rw [hr, encodes_append, ht, hd]
  have hl := h.low
  dsimp only
  rw [if_neg (by omega)]
  have : t.foldl (fun a c => a * 10 + (digit? c).getD 0) 0 = v := h.value
  rw [this]

theorem number_digits {lo hi v : Nat} {t : List Nat} {f : List Nat → Prop} (h : Digits lo hi v t f) (e : Enc) (rest : List Nat)
    (hs : ∀ c ∈ rest, IsScalar c) (hf : f rest) (set : Rd T → Int → Rd T) (r : Rd T) (hr : r.pos = encodes e (t ++ rest)) :
    r.number lo hi set = set { r with pos := encodes e rest } v := by
  unfold Rd.number
  rw [readUInt_digits h e rest hs hf r hr]

theorem numberOr_digits {lo hi v : Nat} {t : List Nat} {f : List Nat → Prop} (h : Digits lo hi v t f) (cfg : ChronoCfg) (e : Enc) (s : NumSys)
    (fmt : List Nat) (ft : Tm → Int) (conv : Int → Int) (rest : List Nat) (hs : ∀ c ∈ rest, IsScalar c) (hf : f rest)
    (set : Rd T → Int → Rd T) (r : Rd T) (hr : r.pos = encodes e (t ++ rest)) (hl : r.st.localized = false) :
    r.numberOr cfg s fmt ft conv lo hi set = set { r with pos := encodes e rest } (conv v) := by
  unfold Rd.numberOr
  rw [if_neg (by simp [Rd.useLocale, hl]), number_digits h e rest hs hf _ r hr]

/-! ### Text and whitespace -/

theorem onText_text (e : Enc) (t rest : List Nat) (ht : ∀ x ∈ t, encode e x = [x]) (r : Rd T) (hr : r.pos = encodes e (t ++ rest)) :
    r.onText t = { r with pos := encodes e rest } := by
  induction t generalizing r with
  | nil =>
    rw [List.nil_append] at hr
    rw [← hr]
    rfl
  | cons c t ih =>
    rw [List.cons_append, encodes_cons, ht c (by simp), List.singleton_append] at hr
    rw [Rd.onText, hr]
    dsimp only
    rw [if_neg (by simp), ih (fun x hx => ht x (by simp [hx])) _ rfl]

theorem onWhitespace_spaces (cfg : ChronoCfg) (hl : GoodLayouts cfg.enc cfg.lay) (ws rest : List Nat) (hw : Spaces ws)
    (hs : ∀ c ∈ rest, IsScalar c) (hrest : rest.dropWhile isSpace = rest) (r : Rd T) (hr : r.pos = encodes cfg.enc (ws ++ rest)) :
    r.onWhitespace cfg = some { r with pos := encodes cfg.enc rest } := by
  unfold Rd.onWhitespace
  rw [hr, skipSpace_encodes cfg.enc _ (ws ++ rest) (scalar_append (fun c hc => (hw c hc).1) hs) (hl _ (scalar_append (fun c hc => (hw c hc).1) hs)),
    if_neg (by simp)]
  dsimp only
  rw [spaces_drop' hw, hrest]

/-! ### Names -/

/-- The test of `try_one_of_str_nocase`: the same character up to bit 5. -/
def nearly (a b : Nat) : Bool := a ^^^ b == 0 || a ^^^ b == 32

/-- The name is at the front of the text up to bit 5 of the characters. -/
def nearPrefix : List Nat → List Nat → Bool
  | [], _ => true
  | _ :: _, [] => false
  | a :: as, b :: bs => nearly b a && nearPrefix as bs

theorem nearly_iff (a b : Nat) : nearly a b = true ↔ a = b ∨ a = b ^^^ 32 := by
  unfold nearly
  rw [Bool.or_eq_true, beq_iff_eq, beq_iff_eq]
  constructor
  · rintro (h | h)
    · left
      have : a ^^^ b ^^^ b = 0 ^^^ b := by rw [h]
      simpa [Nat.xor_assoc] using this
    · right
      have : a ^^^ b ^^^ b = 32 ^^^ b := by rw [h]
      rw [Nat.xor_assoc, Nat.xor_self, Nat.xor_zero] at this
      rw [this, Nat.xor_comm]
  · rintro (rfl | rfl)
    · left; exact Nat.xor_self _
    · right
      rw [Nat.xor_assoc, Nat.xor_comm 32, ← Nat.xor_assoc, Nat.xor_self, Nat.zero_xor]

theorem nearly_trans {a b c : Nat} (h1 : nearly c a = true) (h2 : nearly c b = true) : nearly a b = true := by
  rw [nearly_iff] at *
  rcases h1 with rfl | rfl
  · exact h2
  · rcases h2 with h | h
    · right; rw [← h, Nat.xor_assoc, Nat.xor_self, Nat.xor_zero]
    · left
      have : a ^^^ 32 ^^^ 32 = b ^^^ 32 ^^^ 32 := by rw [h]
      simpa [Nat.xor_assoc] using this

/-- No name is at the front of another one. -/
def PrefixFree {α : Type} (os : List (List Nat × α)) : Prop :=
  os.Pairwise fun a b => nearPrefix a.1 b.1 = false ∧ nearPrefix b.1 a.1 = false

/-- The names without their first `k` letters. -/
def dropNames {α : Type} (k : Nat) (os : List (List Nat × α)) : List (List Nat × α) := os.map fun o => (o.1.drop k, o.2)

/-- `try_one_of_str_nocase` finds the name at the front of the text. -/
theorem tryOneOf_spec {α : Type} (s : List Nat) : ∀ (os : List (List Nat × α)) (k : Nat), PrefixFree (dropNames k os) →
    (∀ o ∈ os, k ≤ o.1.length) →
    tryOneOf os k s = some ((os.find? fun o => nearPrefix (o.1.drop k) s).map fun o => (o.2, s.drop (o.1.length - k))) := by
  induction s with
  | nil =>
    intro os k hpf hlen
    cases os with
    | nil => rfl
    | cons o os =>
      rw [tryOneOf.eq_def]
      dsimp only
      by_cases ho : o.1.length ≤ k
      · have hd : o.1.drop k = [] := List.drop_eq_nil_of_le ho
        have hos : os = [] := by
          cases os with
          | nil => rfl
          | cons x xs =>
            have := (List.pairwise_cons.1 hpf).1 (x.1.drop k, x.2) (by simp)
            rw [show ((o.1.drop k, o.2) : List Nat × α).1 = [] from hd] at this
            simp [nearPrefix] at this
        rw [if_pos ho, hos, if_pos rfl]
        simp [List.find?, hd, nearPrefix]
      · rw [if_neg ho]
        have : (o :: os).find? (fun o => nearPrefix (o.1.drop k) []) = none := by
          apply List.find?_eq_none.2
          intro x hx hp
          have hxe : x.1.drop k = [] := by
            cases hd : x.1.drop k with
            | nil => rfl
            | cons a as => rw [hd] at hp; cases hp
          rcases List.mem_cons.1 hx with rfl | hx'
          · rw [List.drop_eq_nil_iff] at hxe; omega
          · have := (List.pairwise_cons.1 hpf).1 (x.1.drop k, x.2) (List.mem_map.2 ⟨x, hx', rfl⟩)
            rw [hxe] at this
            simp [nearPrefix] at this
        rw [this]; rfl
  | cons ch s ih =>
    intro os k hpf hlen
    cases os with
    | nil => rfl
    | cons o os =>
      rw [tryOneOf.eq_def]
      dsimp only
      by_cases ho : o.1.length ≤ k
      · have hd : o.1.drop k = [] := List.drop_eq_nil_of_le ho
        have hos : os = [] := by
          cases os with
          | nil => rfl
          | cons x xs =>
            have := (List.pairwise_cons.1 hpf).1 (x.1.drop k, x.2) (by simp)
            rw [show ((o.1.drop k, o.2) : List Nat × α).1 = [] from hd] at this
            simp [nearPrefix] at this
        rw [if_pos ho, hos, if_pos rfl]
        have : o.1.length - k = 0 := by omega
        simp [List.find?, hd, nearPrefix, this]
      · rw [if_neg ho]
        have hlong : ∀ x ∈ o :: os, k < x.1.length := by
          intro x hx
          apply Classical.byContradiction
          intro hk
          have hxe : x.1.drop k = [] := List.drop_eq_nil_of_le (by omega)
          rcases List.mem_cons.1 hx with rfl | hx'
          · exact ho (by omega)
          · have := (List.pairwise_cons.1 hpf).1 (x.1.drop k, x.2) (List.mem_map.2 ⟨x, hx', rfl⟩)
            rw [hxe] at this
            simp [nearPrefix] at this
        rw [if_neg (by
          rw [List.any_eq_true]
          rintro ⟨x, hx, hk⟩
          have := hlong x hx
          simp only [decide_eq_true_eq] at hk; omega)]
        have hdrop : ∀ x ∈ o :: os, x.1.drop k = x.1.getD k 0 :: x.1.drop (k + 1) := by
          intro x hx
          have := hlong x hx
          rw [List.drop_eq_getElem_cons this]
          simp [List.getD_eq_getElem?_getD, this]
        rw [ih]
        · congr 1
          rw [List.find?_filter]
          have : ((o :: os).find? fun x => (ch ^^^ x.1.getD k 0 == 0 || ch ^^^ x.1.getD k 0 == 32) && nearPrefix (x.1.drop (k + 1)) s) =
              (o :: os).find? fun x => nearPrefix (x.1.drop k) (ch :: s) := by
            apply find?_congr
            intro x hx
            rw [hdrop x hx]; rfl
          rw [show (fun x : List Nat × α => decide ((ch ^^^ x.1.getD k 0 == 0 || ch ^^^ x.1.getD k 0 == 32) = true ∧ nearPrefix (x.1.drop (k + 1)) s = true)) =
            fun x => (ch ^^^ x.1.getD k 0 == 0 || ch ^^^ x.1.getD k 0 == 32) && nearPrefix (x.1.drop (k + 1)) s from by
              funext x; rw [Bool.decide_and, Bool.decide_eq_true, Bool.decide_eq_true]]
          rw [this]
          cases hf : (o :: os).find? fun x => nearPrefix (x.1.drop k) (ch :: s) with
          | none => rfl
          | some x =>
            have := hlong x (List.mem_of_find?_eq_some hf)
            simp only [Option.map_some, Option.some.injEq, Prod.mk.injEq, true_and]
            rw [show x.1.length - k = (x.1.length - (k + 1)) + 1 by omega, List.drop_succ_cons]
        · unfold PrefixFree dropNames
          rw [List.pairwise_map]
          have h2 : (o :: os).Pairwise fun a b => nearPrefix (a.1.drop k) (b.1.drop k) = false ∧ nearPrefix (b.1.drop k) (a.1.drop k) = false := by
            unfold PrefixFree dropNames at hpf
            rw [List.pairwise_map] at hpf
            exact hpf
          rw [List.pairwise_filter]
          refine List.Pairwise.imp_of_mem ?_ h2
          intro a b ha hb hab hna hnb
          rw [hdrop a ha, hdrop b hb] at hab
          have hn : nearly ch (a.1.getD k 0) = true := hna
          have hn' : nearly ch (b.1.getD k 0) = true := hnb
          simp only [nearPrefix, Bool.and_eq_false_iff] at hab
          rw [nearly_trans hn' hn, nearly_trans hn hn'] at hab
          simpa using hab
        · intro x hx
          exact hlong x (List.mem_filter.1 hx).1
where
  find?_congr {β : Type} {p q : β → Bool} {l : List β} (h : ∀ x ∈ l, p x = q x) : l.find? p = l.find? q := by
    induction l with
    | nil => rfl
    | cons a l ih =>
      rw [List.find?_cons, List.find?_cons, h a (by simp), ih fun x hx => h x (by simp [hx])]

end Scn
