import Verif.Lemmas.Regex
/-
Properties C57 and C58: regex specifications.
-/
namespace Scn
open Spec

/-- C57: every pattern written with escaped slashes is passed on unescaped. -/
theorem C57_unescape (p : List Nat) : unescapePattern (escapeSlashes p) = some p := by
  rw [unescapePattern_spec, unescape_escape]

/-- C57: on every pattern text, exactly the backslashes in front of slashes are removed. -/
theorem C57_unescape_text (s : List Nat) : unescapePattern s = some (unescapeSlashes s) := unescapePattern_spec s

/-- `a\/\\/b` (a backslash stays when it is not followed by a slash). -/
example : escapeSlashes [97, 47, 92, 98] = [97, 92, 47, 92, 98] ∧
    unescapePattern [97, 92, 47, 92, 98] = some [97, 47, 92, 98] := by decide

/-- C58, for patterns not starting with an alignment character and not ending with a backslash: the
    specification `/pattern/flags` gives that pattern and those flags. -/
theorem C58_regex_partial (cfg : RegexCfg) (e : Enc) (hwide : e ≠ .utf8 → cfg.wide = true) (ty : ArgTy)
    (p flags rest : List Nat) (hp : p ≠ []) (hfirst : ∀ c, p.head? = some c → c ≠ 60 ∧ c ≠ 62 ∧ c ≠ 94)
    (hlast : p.getLast? ≠ some 92) (hflags : ∀ c ∈ flags, flagOk cfg c) (hnd : flags.Nodup) :
    ∃ st, parseSpecs cfg e ty ⟨{}, false⟩ (47 :: escapeSlashes p ++ 47 :: (flags ++ 125 :: rest)) = some (st, 125 :: rest) ∧
      st.err = false ∧ regexPattern st.specs = some p ∧
      st.specs.regexFlags = flags.foldl (fun f c => f ||| flagBit c) 0 ∧
      (47 ∉ p → st.specs.type = .regex) ∧ (47 ∈ p → st.specs.type = .regexEscaped) := by
  obtain ⟨h1, h2⟩ := regex_written cfg e hwide ty p flags rest hp hfirst hlast hflags hnd
  refine ⟨_, h1, rfl, h2, rfl, ?_, ?_⟩ <;> intro h <;> simp [regexSpecs, h]

/-- `/a\/b\d/i`. -/
example : parseSpecs ⟨true, false, true⟩ .utf8 .narrowString ⟨{}, false⟩ [47, 97, 92, 47, 98, 92, 100, 47, 105, 125] =
    some (⟨{ ({} : Specs) with type := .regexEscaped, setString := [97, 92, 47, 98, 92, 100], regexFlags := 4 }, false⟩, [125]) ∧
    flagOk ⟨true, false, true⟩ 105 := by
  exact ⟨by decide +kernel, by unfold flagOk; decide⟩

/-- C58 fails for anchored patterns: in `{:/^abc/}` the slash is taken as a fill character and the
    `^` as an alignment, and the rest is rejected. The same goes for every pattern starting with an
    alignment character `a`: the alignment is set. -/
theorem C58_violated_anchor (cfg : RegexCfg) (e : Enc) (st : Setter) (a : Nat) (ha : a = 60 ∨ a = 62 ∨ a = 94) (rest : List Nat) :
    (∃ f, parseAlign e st (47 :: a :: rest) = some (({ st with specs := { st.specs with fill := f } } : Setter).onAlign (checkAlign a), rest)) ∧
      ∃ st', parseSpecs cfg e .narrowString ⟨{}, false⟩ [47, 94, 97, 98, 99, 47, 125] = some (st', [98, 99, 47, 125]) ∧
        st'.specs.align = .center ∧ st'.specs.type ≠ .regex := by
  constructor
  · obtain ⟨f, _, h⟩ := parseAlign_fill e st 47 a rest ha (by unfold IsScalar; decide) (by decide) (by decide) (fun _ => by decide)
    rw [encode_ascii e 47 (by decide)] at h
    exact ⟨f, h⟩
  · refine ⟨⟨{ ({} : Specs) with fill := ⟨[47, 0, 0, 0], 1⟩, type := .floatHex, align := .center }, false⟩, ?_, rfl, by decide⟩
    obtain ⟨x, y, z⟩ := cfg
    cases e <;> cases x <;> cases y <;> cases z <;> decide +kernel

/-- C58 fails for patterns ending with an (escaped) backslash: in `/a\\/` the closing slash is taken
    as escaped. -/
theorem C58_violated_backslash (cfg : RegexCfg) :
    ∃ st', parseSpecs cfg .utf8 .narrowString ⟨{}, false⟩ [47, 97, 92, 92, 47, 125] = some (st', []) ∧ st'.err = true :=
  ⟨⟨{ ({} : Specs) with type := .regexEscaped }, true⟩, by
    obtain ⟨x, y, z⟩ := cfg
    cases x <;> cases y <;> cases z <;> decide +kernel, rfl⟩

end Scn
