import Verif.Spec.TextForm
import Verif.Lemmas.Unicode2
/-
Helper lemmas: well-formed text.
-/
namespace Scn
open Spec

theorem noImpostor_infix {e : Enc} {s t : List Nat} (h : NoImpostor e s) (ht : t <:+: s) : NoImpostor e t := by
  cases e with
  | utf8 => exact fun p hp hl => h p (hp.trans ht) hl
  | utf16 => exact trivial
  | utf32 => exact fun c hc => h c (ht.subset hc)

theorem denotes_scalar {e : Enc} {s cps : List Nat} (h : Denotes e s cps) : NoImpostor e s → (∀ cp ∈ cps, IsScalar cp) ∧ s = encodes e cps := by
  induction h with
  | nil => exact fun _ => ⟨by simp, rfl⟩
  | @cons p s cp cps hel _ ih =>
    intro hn
    obtain ⟨h1, h2⟩ := ih (noImpostor_infix hn (List.suffix_append p s).isInfix)
    have hp : IsScalar cp ∧ p = encode e cp := by
      cases e with
      | utf8 =>
        obtain ⟨hl, rfl⟩ := hel
        obtain ⟨g1, g2⟩ := hn p (List.prefix_append p s).isInfix hl
        exact ⟨g1, loose_scalar p hl g2⟩
      | utf16 => exact hel
      | utf32 =>
        obtain ⟨rfl, hlt⟩ := hel
        exact ⟨⟨hlt, hn cp (by simp)⟩, rfl⟩
    refine ⟨?_, ?_⟩
    · intro x hx
      rcases List.mem_cons.1 hx with rfl | hx
      · exact hp.1
      · exact h1 x hx
    · show p ++ s = encodes e (cp :: cps)
      rw [encodes, List.flatMap_cons, ← hp.2, h2]
      rfl

theorem loose_same {p q x y : List Nat} (hp : LooseUnit p) (hq : LooseUnit q) (h : p ++ x = q ++ y) : p = q := by
  rcases loose_cases p hp with ⟨a, rfl, h1⟩ | ⟨a, b, rfl, h1⟩ | ⟨a, b, c, rfl, h1⟩ | ⟨a, b, c, d, rfl, h1⟩ <;>
    rcases loose_cases q hq with ⟨a', rfl, h2⟩ | ⟨a', b', rfl, h2⟩ | ⟨a', b', c', rfl, h2⟩ | ⟨a', b', c', d', rfl, h2⟩ <;>
    simp only [List.cons_append, List.nil_append, List.cons.injEq, and_true] at h ⊢ <;> first | omega | simp only [h, and_self]

/-- The first byte is none of those that follow others. -/
theorem loose_first {p : List Nat} (hp : LooseUnit p) : ∃ a t, p = a :: t ∧ ¬ (0x80 ≤ a ∧ a < 0xC0) ∧ ∀ b ∈ t, 0x80 ≤ b ∧ b < 0xC0 := by
  rcases loose_cases p hp with ⟨a, rfl, h1⟩ | ⟨a, b, rfl, h1⟩ | ⟨a, b, c, rfl, h1⟩ | ⟨a, b, c, d, rfl, h1⟩ <;>
    refine ⟨a, _, rfl, by omega, ?_⟩ <;> simp <;> omega

theorem loose_infix {p post : List Nat} (hp : LooseUnit p) : ∀ (ps : List (List Nat)) (pre : List Nat), (∀ q ∈ ps, LooseUnit q) →
    pre ++ (p ++ post) = ps.flatten → p ∈ ps := by
  obtain ⟨a, t, rfl, ha, _⟩ := loose_first hp
  intro ps
  induction ps with
  | nil => intro pre _ h; simp at h
  | cons q ps ih =>
    intro pre hq h
    rw [List.flatten_cons] at h
    have hq0 := hq q (by simp)
    have hqs : ∀ r ∈ ps, LooseUnit r := fun r hr => hq r (List.mem_cons_of_mem _ hr)
    cases pre with
    | nil => rw [loose_same hp hq0 h]; simp
    | cons x pre =>
      rcases List.append_eq_append_iff.1 h with ⟨a', h1, h2⟩ | ⟨c', h1, h2⟩
      · cases a' with
        | nil => exact List.mem_cons_of_mem _ (ih [] hqs h2)
        | cons y ys =>
          obtain ⟨b, u, h3, _, h4⟩ := loose_first hq0
          rw [h3] at h1
          have h5 : u = pre ++ y :: ys := (List.cons.inj h1).2
          have h6 : a = y := (List.cons.inj h2).1
          exact absurd (h4 y (by rw [h5]; simp)) (by rw [← h6]; exact ha)
      · exact List.mem_cons_of_mem _ (ih c' hqs h2.symm)

/-- In well-formed text, nothing looks like a character without being one. -/
theorem wellFormed_noImpostor {e : Enc} {s : List Nat} (h : WellFormedIn e s) : NoImpostor e s := by
  obtain ⟨cps, h1, rfl⟩ := h
  cases e with
  | utf8 =>
    rintro p ⟨pre, post, h2⟩ hp
    have h3 : pre ++ (p ++ post) = (cps.map utf8).flatten := by
      rw [← List.append_assoc, h2, ← List.flatMap_def]; rfl
    have h4 := loose_infix hp _ pre (fun q hq => by
      obtain ⟨cp, hc, rfl⟩ := List.mem_map.1 hq
      exact (utf8_loose cp (h1 cp hc).1).1) h3
    obtain ⟨cp, hc, rfl⟩ := List.mem_map.1 h4
    rw [(utf8_loose cp (h1 cp hc).1).2]
    exact ⟨h1 cp hc, rfl⟩
  | utf16 => exact trivial
  | utf32 =>
    have h2 : encodes .utf32 cps = cps := by
      induction cps with
      | nil => rfl
      | cons c cs ih =>
        show c :: encodes .utf32 cs = _
        rw [ih fun x hx => h1 x (List.mem_cons_of_mem _ hx)]
    rw [h2]
    exact fun c hc => (h1 c hc).2

theorem partOf_wellFormed {e dst : Enc} {s rest w : List Nat} (hd : dst ≠ .utf16 ∨ e = .utf16) (hn : NoImpostor e s) (h : PartOf e dst s rest w) :
    WellFormedIn dst w := by
  obtain ⟨pre, mid, post, rfl, _, h⟩ := h
  have hm : NoImpostor e mid := noImpostor_infix hn ⟨pre, post, rfl⟩
  rcases h with ⟨cps, hc, hv⟩ | ⟨h1, h2, _⟩
  · obtain ⟨g1, g2⟩ := denotes_scalar hc hm
    split at hv
    · rename_i he
      subst he; subst hv
      exact ⟨cps, g1, g2⟩
    · exact ⟨cps, g1, hv⟩
  · rcases hd with hd | hd
    · exact absurd h1 hd
    · exact absurd hd h2

end Scn
