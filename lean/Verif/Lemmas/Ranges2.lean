import Verif.Lemmas.Ranges
/-
Elements of built-in types.
-/
namespace Scn
open Spec

theorem typeCheck_default (d : Dest) (h : IntType d) : runTypeCheck d.argTy {} = some true := by
  cases d with
  | int T ty =>
    have := h.2 T ty rfl
    simp only [List.mem_cons, List.not_mem_nil, or_false] at this
    rcases this with rfl | rfl | rfl | rfl | rfl | rfl | rfl | rfl | rfl | rfl <;> rfl
  | string dst => cases dst <;> rfl
  | view dst stored => cases dst <;> rfl
  | float ty cv seg =>
    have := h.1 ty cv seg rfl
    simp only [List.mem_cons, List.not_mem_nil, or_false] at this
    rcases this with rfl | rfl | rfl <;> rfl
  | _ => rfl

theorem specsReader_default (e wide : Enc) (loc : LocaleData) (old : Nat) (d : Dest) :
    (d.specsReader e wide loc old {}).skipWs = skipsSpaces d := by
  cases d <;> rfl

/-- The reader for the default specification reads a shown value. -/
theorem shows_core (e wide : Enc) (loc : LocaleData) (old : Nat) {d : Dest} {v : Val} {text : List Nat} {follow : List Nat → Prop}
    (h : Shows e d v text follow) (rest : List Nat) (hr : ∀ c ∈ rest, IsScalar c) (hf : follow rest) (rd : Reader Val)
    (hrd : d.specsReader e wide loc old {} = rd) (l : Layout) (hl : GoodLayout e l (text ++ rest)) :
    rd.read l (encodes e (text ++ rest)) = .ok (v, encodes e rest) := by
  obtain ⟨hsc, c0, t0, hc0, hsp0⟩ := shows_text h
  have hall : ∀ c ∈ text ++ rest, IsScalar c := scalar_append hsc hr
  cases h with
  | int T ty x hT hx =>
    cases hrd
    have hascii : ∀ c ∈ intText 10 x, c < 128 := by
      intro c hc
      unfold intText at hc
      rcases List.mem_append.1 hc with h | h
      · split at h
        · simp at h; omega
        · cases h
      · exact (numeral_digits 10 x.natAbs (by decide) (by decide) c h).2
    have := C03_roundtrip (srcOf e l) T hT 10 (by decide) (by decide) x hx (encodes e rest)
      (noDigitFirst_encodes e 10 rest hr hf)
      (fun hn => by cases utf8_units hn; exact utf8s_bytes rest hr) (by intro _ h; omega)
    rw [encodes_append, encodes_asciis e _ hascii]
    show (readInt (srcOf e l) T ⟨10, false, none⟩ _).map _ = _
    rw [this]; rfl
  | bool b =>
    cases hrd
    rw [encodes_append, encodes_asciis e _ (by intro c hc; cases b <;> simp [trueWord, falseWord] at hc <;> omega)]
    show (readBool true true readBoolText _).map _ = _
    have h1 := readBool_spec true true ((if b = true then trueWord else falseWord) ++ encodes e rest)
    have h2 : ReadsWord (offered true true) ((if b = true then trueWord else falseWord) ++ encodes e rest) (.ok (b, encodes e rest)) :=
      Or.inl ⟨_, b, _, by cases b <;> decide, rfl, rfl⟩
    rw [readsWord_det (by
      have : ∀ p ∈ offered true true, ∀ q ∈ offered true true, p.1 <+: q.1 → p.1 = q.1 ∧ p.2 = q.2 := by decide
      exact fun w b w' b' hp hq => this (w, b) hp (w', b') hq) h1 h2]
    rfl
  | string t ht hne =>
    cases hrd
    show (readWord e e l _).map _ = _
    unfold readWord
    rw [readUntilSpace_encodes e _ _ hall hl, dropWhile_stop _ _ _ (fun c h => by rw [(ht c h).2]; rfl)]
    · dsimp only
      rw [readString_encodes e _ _ (fun c h => (ht c h).1)]
      rfl
    · rcases hf with rfl | ⟨c, t, rfl, h⟩
      · exact Or.inl rfl
      · exact Or.inr ⟨c, t, rfl, by rw [h]; rfl⟩
  | char c hc hs he =>
    subst he
    cases hrd
    rw [encodes_append, encodes_asciis _ [c] (by simpa using hc)]
    rfl
  | codePoint c hc hs =>
    cases hrd
    show (readCodePoint e _).map _ = _
    rw [encodes_append, show encodes e [c] = encode e c by rw [encodes_cons, encodes_nil, List.append_nil],
      readCodePoint_encode e c hc]
    rfl
  | pointer a ha =>
    cases hrd
    have h := shows_read e wide (.pointer a ha) rest hr hf
    have hne : encodes e ([48, 120] ++ numeral 16 a ++ rest) ≠ [] := by rw [Ne, encodes_eq_nil]; simp
    have hs := skipSpace_at e ([48, 120] ++ numeral 16 a ++ rest) hall ⟨48, _, rfl, by decide⟩
    unfold defaultRead at h
    rw [if_neg hne, if_pos (show (Dest.pointer.defaultReader e wide).skipWs = true from rfl), hs, Res.bind_ok] at h
    have hk : ∀ k : Src, k.narrow = decide (e = .utf8) → readInt k ⟨64, false⟩ ⟨16, false, none⟩ (encodes e ([48, 120] ++ numeral 16 a ++ rest)) =
        readInt (srcOf e .contiguous) ⟨64, false⟩ ⟨16, false, none⟩ (encodes e ([48, 120] ++ numeral 16 a ++ rest)) := by
      intro k hk
      rw [encodes_append, encodes_asciis e ([48, 120] ++ numeral 16 a) (by
        intro c hc
        rcases List.mem_append.1 hc with h | h
        · simp at h; omega
        · exact (numeral_digits 16 a (by decide) (by decide) c h).2)]
      have hby : e = .utf8 → ∀ y ∈ [48, 120] ++ numeral 16 a ++ encodes e rest, y < 256 := by
        intro he
        subst he
        intro y hy
        rcases List.mem_append.1 hy with hy | hy
        · rcases List.mem_append.1 hy with hy | hy
          · simp at hy; omega
          · have := (numeral_digits 16 a (by decide) (by decide) y hy).2; omega
        · exact utf8s_bytes rest hr y hy
      rw [pointer_scan, pointer_scan]
      · intro _ _; simp [afterSign]
      · intro hn; exact hby (utf8_units hn)
      · intro _ _; simp [afterSign]
      · intro hn; rw [hk] at hn; exact hby (by simpa using hn)
    change (readInt (srcOf e l) ⟨64, false⟩ ⟨16, false, none⟩ _).map _ = _
    rw [hk (srcOf e l) rfl]
    exact h
  | view t ht hne =>
    cases hrd
    exact viewWord_shown e l text rest ht hr hf hl
  | float ty cv seg round hcv sg t v hsg ht hv =>
    cases hrd
    show (readFloatAs cv e (srcOf e l) seg .classic .none _).map _ = _
    rw [float_shown hcv e _ seg (Or.inl rfl) hsg ht hv rest hr hf]
    rfl

/-- A shown value with whitespace in front (where it is skipped) is an element. -/
theorem shows_element (e wide : Enc) (loc : LocaleData) (old : Nat) (lay : List Nat → Layout) (hl : GoodLayouts e lay)
    {d : Dest} {v : Val} {text : List Nat} {follow : List Nat → Prop} (h : Shows e d v text follow) (hty : IntType d)
    (ws : List Nat) (hws : Spaces ws) (hsk : ws ≠ [] → skipsSpaces d = true) :
    ReadsAs e (builtinScan e wide loc old lay d {}) v (ws ++ text) follow := by
  intro rest hr hf
  obtain ⟨hsc, c0, t0, hc0, hsp0⟩ := shows_text h
  have hall : ∀ c ∈ text ++ rest, IsScalar c := scalar_append hsc hr
  refine ⟨rest, ?_, hr, rfl⟩
  obtain ⟨rd, hrd⟩ : ∃ rd, d.specsReader e wide loc old {} = rd := ⟨_, rfl⟩
  have hrs : rd.skipWs = skipsSpaces d := by rw [← hrd]; exact specsReader_default e wide loc old d
  unfold builtinScan Dest.readSpecs
  rw [typeCheck_default d hty]
  dsimp only
  rw [hrd, argRead_plain e {} ⟨rfl, rfl, rfl⟩, hrs, List.append_assoc]
  have hcore : ∀ l, GoodLayout e l (text ++ rest) → rd.read l (encodes e (text ++ rest)) = .ok (v, encodes e rest) :=
    fun l hl => shows_core e wide loc old h rest hr hf rd hrd l hl
  by_cases hs : skipsSpaces d = true
  · rw [if_pos hs, skipSpace_drop e lay hl (ws ++ (text ++ rest)) (text ++ rest)
      (scalar_append (fun c hc => (hws c hc).1) hall) (spaces_drop hws (Or.inr ⟨c0, t0 ++ rest, by rw [hc0]; rfl, hsp0⟩))
      (by rw [hc0]; simp), Res.bind_ok]
    exact hcore _ (hl _ hall)
  · have : ws = [] := by
      cases ws with
      | nil => rfl
      | cons c ws => exact absurd (hsk (by simp)) hs
    subst this
    rw [if_neg hs]
    exact hcore _ (hl _ hall)

end Scn
