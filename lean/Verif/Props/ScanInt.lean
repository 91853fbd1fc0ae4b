import Verif.Model.ScanInt
import Verif.Props.Specs
/-
C83: `scan_int`.
The vocabulary is in `Verif/Spec/Calls.lean` (`afterSpaces`, `intLetter`, `callFormat`) and `Verif/Spec/IntScan.lean`.
-/
namespace Scn
open Spec

theorem scanIntFn_text {T : IntTy} {base : Nat} {cps : List Nat} (hs : ∀ c ∈ cps, IsScalar c) :
    scanIntFn T base (encodes .utf8 cps) = afterSpaces .utf8 (readWithBase T base) cps := by
  unfold scanIntFn afterSpaces
  rw [skipSpace_encodes .utf8 .contiguous cps hs trivial]
  have hiff : cps.takeWhile isSpace = cps ↔ cps.dropWhile isSpace = [] := (dropWhile_nil_iff _ _).symm
  by_cases hx : cps.dropWhile isSpace = []
  · rw [if_pos ⟨rfl, hiff.2 hx⟩, if_pos hx]; rfl
  · rw [if_neg (fun hh => hx (hiff.1 hh.2)), if_neg hx]; rfl

theorem intText_head {b : Nat} (h2 : 2 ≤ b) (h36 : b ≤ 36) (x : Int) :
    (∀ c ∈ intText b x, c < 128) ∧ ∃ c t, intText b x = c :: t ∧ isSpace c = false := by
  have hd := numeral_digits b x.natAbs h2 h36
  have hn := numeral_isNumeral b x.natAbs h2 h36
  unfold intText
  constructor
  · intro c hc
    rcases List.mem_append.1 hc with h | h
    · split at h
      · simp at h; omega
      · cases h
    · exact (hd c h).2
  · split
    · exact ⟨45, _, rfl, by decide⟩
    · cases h : numeral b x.natAbs with
      | nil => exact absurd h hn.1
      | cons c t =>
        have := hd c (by rw [h]; simp)
        exact ⟨c, t, rfl, digit_not_space this.1⟩

/-! ### C83: what scan_int reads -/

/-- C83, reading: on any text `scan_int` skips whitespace and reads an integer in the given base (0: chosen by a prefix; an
    explicit base allows its own prefix); nothing but whitespace is the end of the input. `scanIntW` is the specification with the
    known deviation of C02. Missing from the full claim: a control character 0x10 in front of the digits (C07). -/
theorem C83_reads_partial {T : IntTy} (hT : T.Std) {base : Nat} (hb : base = 0 ∨ (2 ≤ base ∧ base ≤ 36)) {cps : List Nat}
    (hs : ∀ c ∈ cps, IsScalar c) (hq : (afterSign (encodes .utf8 (cps.dropWhile isSpace))).head? ≠ some 16) :
    scanIntFn T base (encodes .utf8 cps) = afterSpaces .utf8 (scanIntW T base false) cps := by
  rw [scanIntFn_text hs]
  unfold afterSpaces readWithBase
  split
  · rfl
  · exact readInt_W _ T hT base false _ hb (fun _ _ => hq)
      (fun _ => utf8s_bytes _ fun x hx => hs x (List.dropWhile_sublist _ |>.subset hx))

/-- C83, reading, types of at most 32 bits: exactly the specification of integer scanning. Missing as above. -/
theorem C83_reads_upto32_partial {T : IntTy} (hT : Upto32 T) {base : Nat} (hb : base = 0 ∨ (2 ≤ base ∧ base ≤ 36)) {cps : List Nat}
    (hs : ∀ c ∈ cps, IsScalar c) (hq : (afterSign (encodes .utf8 (cps.dropWhile isSpace))).head? ≠ some 16) :
    scanIntFn T base (encodes .utf8 cps) = afterSpaces .utf8 (scanInt T base false) cps := by
  rw [scanIntFn_text hs]
  unfold afterSpaces readWithBase
  split
  · rfl
  · exact C01_reader_upto32 _ T hT base false _ hb (fun _ _ => hq)
      (fun _ => utf8s_bytes _ fun x hx => hs x (List.dropWhile_sublist _ |>.subset hx))

/-- Line separator, "-0x1F!", in base 0 is -31. -/
example : encodes .utf8 [8232, 45, 48, 120, 49, 70, 33] = [226, 128, 168, 45, 48, 120, 49, 70, 33] ∧
    afterSpaces .utf8 (scanInt ⟨32, true⟩ 0 false) [8232, 45, 48, 120, 49, 70, 33] = .ok (-31, [33]) := by decide +kernel
example : scanIntFn ⟨32, true⟩ 0 [226, 128, 168, 45, 48, 120, 49, 70, 33] = .ok (-31, [33]) := by
  rw [show [226, 128, 168, 45, 48, 120, 49, 70, 33] = encodes .utf8 [8232, 45, 48, 120, 49, 70, 33] by decide +kernel,
    C83_reads_upto32_partial (Or.inr (Or.inr rfl)) (by decide) (by decide +kernel) (by decide +kernel)]
  decide +kernel

/-! ### C83: round trip -/

/-- C83, round trip: any whitespace, an integer of the type written in base `b`, and any text that cannot continue it:
    `scan_int` returns the integer and leaves the text. -/
theorem C83_roundtrip {T : IntTy} (hT : T.Std) {b : Nat} (h2 : 2 ≤ b) (h36 : b ≤ 36) {x : Int} (hx : InRange T x)
    {ws rest : List Nat} (hws : Spaces ws) (hsc : ∀ c ∈ rest, IsScalar c) (hr : NoDigitFirst b rest)
    (hp : x = 0 → (b = 2 ∨ b = 8 ∨ b = 16) → ∀ l ∈ rest.head?, l ∉ [98, 66, 111, 79, 120, 88]) :
    scanIntFn T b (encodes .utf8 (ws ++ (intText b x ++ rest))) = .ok (x, encodes .utf8 rest) := by
  obtain ⟨hascii, c, t, hc, hsp⟩ := intText_head h2 h36 x
  have hall : ∀ c ∈ ws ++ (intText b x ++ rest), IsScalar c :=
    scalar_append (fun c hc => (hws c hc).1) (scalar_append (fun c hc => by have := hascii c hc; unfold IsScalar; omega) hsc)
  rw [scanIntFn_text hall]
  unfold afterSpaces readWithBase
  rw [spaces_drop hws (Or.inr ⟨c, t ++ rest, by rw [hc]; rfl, hsp⟩), if_neg (by rw [hc]; simp), encodes_append, encodes_asciis _ _ hascii]
  refine C03_roundtrip _ T hT b h2 h36 x hx _ (noDigitFirst_encodes .utf8 b rest hsc hr) (fun _ => utf8s_bytes rest hsc) ?_
  intro h0 hb l hl hm
  cases rest with
  | nil => cases hl
  | cons c' r' =>
    obtain ⟨a, as, ha⟩ := encode_cons .utf8 c'
    rw [encodes_cons, ha] at hl
    have hla : a = l := by simpa using hl
    have hlt : l < 128 := by simp at hm; omega
    have := encode_mem_ascii .utf8 c' l (hsc c' (by simp)) (by rw [ha, hla]; simp) hlt
    exact hp h0 hb c' rfl (this ▸ hm)

/-- Two blanks, "-zz" in base 36, "é". -/
example : Spaces [32, 9] ∧ intText 36 (-1295) = [45, 122, 122] ∧ NoDigitFirst 36 [233] ∧ InRange ⟨16, true⟩ (-1295) := by
  refine ⟨by unfold Spaces; decide +kernel, by decide +kernel, ?_, by decide⟩
  unfold NoDigitFirst; decide

/-! ### C83: agreement with format strings -/

/-- The specification text that asks for a base. -/
def baseSpec : Nat → Option (Option (List Nat))
  | 10 => some none
  | 2 => some (some [98])
  | 8 => some (some [111])
  | 16 => some (some [120])
  | 0 => some (some [105])
  | _ => none

/-- C83, agreement: for every sequence of bytes, valid text or not, `scan_int(source, base)` does what `scan(source, "{}")` does for
    base 10, "{:b}" for 2, "{:o}" for 8, "{:x}" for 16 and "{:i}" for 0: same value, same unused rest, same error. -/
theorem C83_agrees {wide : Enc} {cfg : RegexCfg} {loc : LocaleData} {old : Nat} {T : IntTy} {ty : ArgTy}
    (hty : ty.category = some .integer ∨ ty.category = some .unsignedInteger)
    {base : Nat} {sp : Option (List Nat)} (hb : baseSpec base = some sp) (source : List Nat) :
    match scanIntFn T base source with
    | .ok (v, rest) => ∃ evs, vscan (stdEnv .utf8 wide cfg loc old [.int T ty]) ([123] ++ (sp.elim [] (58 :: ·)) ++ [125]) source = some (.ok rest, evs) ∧
        stored evs = [(0, .int v)]
    | .err x => ∃ evs, vscan (stdEnv .utf8 wide cfg loc old [.int T ty]) ([123] ++ (sp.elim [] (58 :: ·)) ++ [125]) source = some (.error x, evs) ∧ stored evs = []
    | .ub => vscan (stdEnv .utf8 wide cfg loc old [.int T ty]) ([123] ++ (sp.elim [] (58 :: ·)) ++ [125]) source = none := by
  have hargty : (Dest.int T ty).argTy = ty := rfl
  have hd : [Dest.int T ty][0]? = some (.int T ty) := rfl
  generalize henv : stdEnv .utf8 wide cfg loc old [.int T ty] = env
  have hcount : env.count = 1 := by rw [← henv]; rfl
  have hnc : env.argTy 0 ≠ .custom := by
    rw [← henv, std_argTy hd, hargty]; intro hx; rw [hx] at hty; simp [ArgTy.category] at hty
  obtain ⟨read, hmeans, hread⟩ : ∃ read, FieldMeans env ⟨[], 0, sp, read⟩ ∧
      ∀ s, read s = (scanIntFn T base s).map fun r => (.int r.1, r.2) := by
    have hspec : ∀ c, intLetter c = some (base, false) → sp = some [c] → ∃ read, FieldMeans env ⟨[], 0, sp, read⟩ ∧
        ∀ s, read s = (scanIntFn T base s).map fun r => (.int r.1, r.2) := by
      intro c hc hsp
      subst hsp
      obtain ⟨p, h1, h2, h3, h4, h5, h6, h7⟩ := intLetter_facts hc
      have hsp : ({ letter := some c } : Written).specs .utf8 = { type := p } := by
        simp [Written.specs, Written.fillOf, readBack, h1]
      have hcheck : runTypeCheck (Dest.int T ty).argTy { type := p } = some true := by
        have hci : checkInt { type := p } = true := by
          unfold checkInt
          rw [if_neg (by show ¬ p.ord > _; omega)]
          simp
        rw [hargty]
        cases ty <;> simp [ArgTy.category] at hty <;> exact congrArg some hci
      have henc : env.enc = .utf8 := by rw [← henv]; rfl
      refine ⟨env.readSpecs 0 (({ letter := some c } : Written).specs env.enc), ?_, fun s => ?_⟩
      · exact fieldMeans_written (env := env) (w := { letter := some c }) (by simp [Written.render, Written.letterPart]) hnc
          ⟨by simp, by simp, by simp, by simp, fun c' hc' => ⟨p, by simp at hc'; rw [← hc']; exact h1⟩, by simp⟩ []
      · rw [henc, hsp, ← henv]
        simp only [stdEnv]
        rw [hd]
        dsimp only
        unfold Dest.readSpecs
        rw [hcheck]
        dsimp only
        rw [argRead_plain _ _ ⟨rfl, rfl, rfl⟩, if_pos (show (Dest.specsReader .utf8 wide loc old { type := p } (Dest.int T ty)).skipWs = true from rfl)]
        unfold scanIntFn readWithBase
        cases skipSpace .utf8 .contiguous false s with
        | ub => rfl
        | err x => rfl
        | ok it =>
          rw [Res.bind_ok, Res.bind_ok]
          show Res.map _ ((intSpecsReader .utf8 loc T { type := p }).read .contiguous it) = _
          unfold intSpecsReader
          dsimp only
          rw [h5 { type := p } rfl]
          dsimp only
          rw [if_neg (by simp), ← h4]
          rfl
    unfold baseSpec at hb
    split at hb <;> cases hb
    · refine ⟨env.readDefault 0, rfl, fun s => ?_⟩
      rw [← henv]
      show defaultRead .utf8 ((Dest.int T ty).defaultReader .utf8 wide) (fun _ => .contiguous) s = _
      unfold defaultRead scanIntFn
      cases s with
      | nil => rfl
      | cons c t =>
        rw [if_neg (by simp), if_pos (show ((Dest.int T ty).defaultReader .utf8 wide).skipWs = true from rfl)]
        cases skipSpace .utf8 .contiguous false (c :: t) <;> rfl
    · exact hspec 98 rfl rfl
    · exact hspec 111 rfl rfl
    · exact hspec 120 rfl rfl
    · exact hspec 105 rfl rfl
  have hfmt : [123] ++ (sp.elim [] (58 :: ·)) ++ [125] = callFormat true [⟨[], 0, sp, read⟩] [] := by
    cases sp <;> simp [callFormat, CallField.text]
  have hord : inOrder (litStep env) [⟨[], 0, sp, read⟩] [] source = (scanIntFn T base source).map fun r => ([(0, .int r.1)], r.2) := by
    simp only [inOrder, litStep_nil, Res.bind_ok, Res.map_ok, hread]
    cases scanIntFn T base source <;> rfl
  have hf : ∀ f ∈ [(⟨[], 0, sp, read⟩ : CallField Val)], FieldMeans env f ∧ NoBrace f.gap := by
    intro f hf
    rw [List.mem_singleton.1 hf]
    exact ⟨hmeans, by intro c hc; cases hc⟩
  have hn : Numbered true ([(⟨[], 0, sp, read⟩ : CallField Val)].map fun f => f.id) env.count := by
    rw [hcount]; exact ⟨by simp, rfl, by simp, fun _ => rfl⟩
  have hl : NoBrace [] := by intro c hc; cases hc
  rw [hfmt]
  cases h : scanIntFn T base source with
  | ok r =>
    rw [h] at hord
    exact C81_success_partial hl (by omega) hf hn hord
  | ub =>
    rw [h] at hord
    exact (C81_undefined_partial hl (by omega) hf hn source).2 hord
  | err x =>
    rw [h] at hord
    obtain ⟨evs, e', h1, h2, _, h4, _⟩ := C81_failure_partial hl (by omega) hf hn hord
    have hre : reached (litStep env) [⟨[], 0, sp, read⟩] source = 1 := by simp only [reached]; split <;> rfl
    have hbef : readBefore (litStep env) [⟨[], 0, sp, read⟩] source = [] := by
      simp only [readBefore, litStep_nil, Res.bind_ok, hread, h]; rfl
    have := h4 (fun f hf => by rw [List.mem_singleton.1 hf]; exact hnc) hre
    subst this
    exact ⟨evs, h1, by rw [h2, hbef]⟩

example : baseSpec 16 = some (some [120]) ∧ ArgTy.category .int = some .integer ∧
    scanIntFn ⟨32, true⟩ 16 [32, 49, 70, 33] = .ok (31, [33]) ∧ scanIntFn ⟨32, true⟩ 10 [255, 49] = .err .invalidScannedValue ∧
    scanIntFn ⟨32, true⟩ 10 [9] = .err .endOfInput := by decide +kernel

end Scn
