import Verif.Lemmas.CustomScan
import Verif.Props.Calls
/-
C99: what scanners of custom types see.
The vocabulary is in `Verif/Spec/CustomScan.lean`; `CustomMeans` ties the specification text of a field to what the scanner does.
-/
namespace Scn
open Spec

variable {L A V : Type}

/-! ### C99 -/

/-- C99, contiguous sources: whatever the scanner of a custom type does with the iterators, the segments and the locale of its context, as
    long as it stays in the source, it gets what `onRest` says for the rest of the source; in a field without a specification (where the
    context begins at the rest) as in one with a specification (where it begins in the middle of a buffer over the whole source). The
    source goes on where the iterator it returns points to. -/
theorem C99_contiguous_partial (loc : Option L) (p : ScanProg L A) (pre cur : List Nat) (h : onRest cur loc p ≠ .ub) :
    customDefault false loc p cur = onRest cur loc p ∧ customSpecs false (pre ++ cur) loc p cur = onRest cur loc p :=
  ⟨customDefault_rest loc p cur h, customSpecs_rest loc p pre cur h⟩

/-- C99, sources that are not contiguous: a scanner that looks at the characters one by one gets the same as on a contiguous source with the
    same text, and the source goes on at the same place. Missing from the full claim: scanners that look at segments, which differ. -/
theorem C99_buffer_partial (loc : Option L) (p : ScanProg L A) (hp : OneByOne p) (base : Nat) (b : Buf) (hb : b.Ok) (hbase : base ≤ b.whole.length)
    (h : onRest (b.whole.drop base) loc p ≠ .ub) :
    (∃ e, onRest (b.whole.drop base) loc p = .err e ∧ p.onBuf base loc b = .err e) ∨
    ∃ a r b' off, onRest (b.whole.drop base) loc p = .ok (a, r) ∧ p.onBuf base loc b = .ok ((a, base + off), b') ∧ b.Later b' ∧
      r = b.whole.drop (base + off) ∧ base + off ≤ b.whole.length :=
  onBuf_rest loc p hp base b hb hbase h

/-- C99, null sources (a default constructed `std::string_view`): a scanner that looks at the characters one by one sees an empty source. -/
theorem C99_null_partial (loc : Option L) (p : ScanProg L A) (hp : OneByOne p) (h : onRest [] loc p ≠ .ub) :
    customDefault true loc p [] = onRest [] loc p ∧ customSpecs true [] loc p [] = onRest [] loc p :=
  ⟨onView_null loc p hp h [] rfl, onView_null loc p hp h [] rfl⟩

/-- A scanner that does what `skip_classic_whitespace` and the readers of built-in types do first (/repo/src/scn/impl.h:979-1010, 2225-2233): it looks
    at the segment. Here it then reports the end of the input if there is none, or takes a character. -/
def peekSegment : ScanProg L Nat :=
  .segment 0 fun seg =>
    match seg with
    | [] => .fail .endOfInput
    | c :: _ => .done c 1

/-- C99 is violated for null sources: the iterators of a null view are taken for those of a buffer, so that looking at the segment, as all
    ranges, dates and built-in types in a scanner of a custom type do, is undefined; on an empty source that is not null, it is the end of
    the input. In a field with and without a specification. -/
theorem C99_violated_null (loc : Option L) :
    customDefault true loc peekSegment [] = .ub ∧ customSpecs true [] loc peekSegment [] = .ub ∧
      customDefault false loc peekSegment [] = .err .endOfInput ∧ onRest [] loc (peekSegment : ScanProg L Nat) = .err .endOfInput := by
  refine ⟨rfl, rfl, rfl, rfl⟩

/-- C99, whole calls: in a call with any mix of fields of built-in and custom types, with and without specifications, each scanner sees
    exactly what the fields before it have left, and the locale of the call. Missing from the full claim: the format string "{}"
    (`C99_violated_locale`), and what C81 lacks. -/
theorem C99_call_partial {env : Env V} (ha : Advancing env) {sc : Nat → Option (CustomScanner L V)} {auto : Bool} {fs : List (CallField V)} {last : List Nat}
    (hl : NoBrace last) (h64 : env.count < 64) {src : List Nat} (loc : Option L) (hgap : ∀ f ∈ fs, NoBrace f.gap)
    (hcust : ∀ f ∈ fs, ∀ c, sc f.id = some c → CustomMeans loc c f)
    (hother : ∀ f ∈ fs, sc f.id = none → FieldMeans env f ∧ env.argTy f.id ≠ .custom ∧ ∀ s x, f.read s = .ok x → x.2 <:+ s)
    (hn : Numbered auto (fs.map fun f => f.id) env.count) (hne : callFormat auto fs last ≠ [123, 125]) {vs : List (Nat × V)} {r : List Nat}
    (h : inOrder (litStep env) fs last src = .ok (vs, r)) :
    ∃ evs, vscanWithLocale (fun l => env.withCustom false src l sc) loc (callFormat auto fs last) src = some (.ok r, evs) ∧ stored evs = vs := by
  have hstep : ∀ t s, litStep (env.withCustom false src loc sc) t s = litStep env t s := by
    intro t s
    unfold litStep
    rw [litLoop_same (env := env) (env' := env.withCustom false src loc sc) rfl rfl]
  have hargTy : ∀ f ∈ fs, (env.withCustom false src loc sc).argTy f.id = if (sc f.id).isSome then .custom else env.argTy f.id := by
    intro f hf
    have hid : f.id < env.count := hn.below f.id (List.mem_map.2 ⟨f, hf, rfl⟩)
    unfold Env.argTy
    rw [if_pos (show f.id < (env.withCustom false src loc sc).count from hid), if_pos hid]
    rfl
  have hadv : ∀ f ∈ fs, ∀ s x, f.read s = .ok x → x.2 <:+ s := by
    intro f hf s x hx
    cases hc : sc f.id with
    | none => exact (hother f hf hc).2.2 s x hx
    | some c =>
      have := hcust f hf c hc
      unfold CustomMeans at this
      cases hs : f.spec with
      | none => rw [hs] at this; obtain ⟨q, p, _, hr⟩ := this; rw [hr] at hx; exact onRest_suffix _ _ _ hx
      | some t => rw [hs] at this; obtain ⟨p, _, hr⟩ := this; rw [hr] at hx; exact onRest_suffix _ _ _ hx
  have hread : ∀ f ∈ fs, ∀ s x, s <:+ src → f.read s = .ok x → (actualField (env.withCustom false src loc sc) f).read s = .ok x := by
    intro f hf s x hsuf hx
    unfold actualField
    dsimp only
    cases hc : sc f.id with
    | none =>
      have ho := hother f hf hc
      cases hs : f.spec with
      | none =>
        have := ho.1
        unfold FieldMeans at this
        rw [hs] at this
        simp only [Env.withCustom, hc]
        rw [← this]
        exact hx
      | some t =>
        dsimp only
        rw [if_neg]
        · exact hx
        · rw [hargTy f hf, hc]; exact ho.2.1
    | some c =>
      have hm := hcust f hf c hc
      unfold CustomMeans at hm
      obtain ⟨pre, rfl⟩ := hsuf
      cases hs : f.spec with
      | none =>
        rw [hs] at hm
        obtain ⟨q, p, hp, hr⟩ := hm
        rw [hr] at hx
        replace hx : onRest s loc p = .ok x := hx
        simp only [Env.withCustom, hc, hp]
        rw [customDefault_rest loc p s (by rw [hx]; intro h; cases h)]
        exact hx
      | some t =>
        rw [hs] at hm
        obtain ⟨p, hp, hr⟩ := hm
        rw [hr] at hx
        replace hx : onRest s loc p = .ok x := hx
        dsimp only
        rw [if_pos (by rw [hargTy f hf, hc]; rfl)]
        simp only [Env.withCustom, hc, hp []]
        rw [customSpecs_rest loc p pre s (by rw [hx]; intro h; cases h)]
        exact hx
  have hmeans : ∀ f ∈ fs.map (actualField (env.withCustom false src loc sc)), FieldMeans (env.withCustom false src loc sc) f ∧ NoBrace f.gap := by
    intro f' hf'
    obtain ⟨f, hf, rfl⟩ := List.mem_map.1 hf'
    refine ⟨?_, hgap f hf⟩
    unfold FieldMeans actualField
    dsimp only
    cases hs : f.spec with
    | none => rfl
    | some t =>
      dsimp only
      cases hc : sc f.id with
      | none =>
        have ho := hother f hf hc
        have hnc : ¬ (env.withCustom false src loc sc).argTy f.id = .custom := by rw [hargTy f hf, hc]; exact ho.2.1
        rw [if_neg hnc, if_neg hnc]
        have := ho.1
        unfold FieldMeans at this
        rw [hs] at this
        dsimp only at this
        rw [if_neg ho.2.1] at this
        rw [hargTy f hf, hc]
        exact this
      | some c =>
        have hyc : (env.withCustom false src loc sc).argTy f.id = .custom := by rw [hargTy f hf, hc]; rfl
        rw [if_pos hyc, if_pos hyc]
        have hm := hcust f hf c hc
        unfold CustomMeans at hm
        rw [hs] at hm
        obtain ⟨p, hp, hr⟩ := hm
        intro r s
        simp only [Env.withCustom, hc, hp]
  have hids : (fs.map (actualField (env.withCustom false src loc sc))).map (fun f => f.id) = fs.map fun f => f.id := by
    rw [List.map_map]; rfl
  have hfmt : callFormat auto (fs.map (actualField (env.withCustom false src loc sc))) last = callFormat auto fs last := by
    unfold callFormat
    rw [List.flatMap_map]
    rfl
  have hord := inOrder_refines (lit := litStep env) (all := src) (last := last) (actualField (env.withCustom false src loc sc))
    (fun t s r hr => by
      unfold litStep at hr
      split at hr
      · cases hr
      · rename_i r' h1; cases hr; exact litLoop_suffix ha _ _ _ _ _ h1
      · cases hr) fs (fun f _ => ⟨rfl, rfl⟩) hadv hread src (vs, r) (List.suffix_refl _) h
  obtain ⟨evs, h1, h2⟩ := C81_success_partial (env := env.withCustom false src loc sc) (auto := auto) (fs := fs.map (actualField (env.withCustom false src loc sc)))
    (last := last) hl h64 hmeans (by rw [hids]; exact hn) (src := src) (vs := vs) (r := r)
    (by rw [show litStep (env.withCustom false src loc sc) = litStep env from funext fun t => funext fun s => hstep t s]; exact hord)
  refine ⟨evs, ?_, h2⟩
  unfold vscanWithLocale
  rw [if_neg (by rintro ⟨hx, _⟩; exact hne hx), ← hfmt]
  exact h1

/-- C99 is violated for the format string "{}" with one argument: the scanner does not see the locale of the call, but an empty one. -/
theorem C99_violated_locale {env : Env V} (hc : env.count = 1) {sc : Nat → Option (CustomScanner L V)} {c : CustomScanner L V} (h0 : sc 0 = some c)
    {q : List Nat} {p : ScanProg L V} (hp : c.parse [] = some (q, p)) (src : List Nat) (loc : Option L) {v : V} {r : List Nat}
    (h : onRest src none p = .ok (v, r)) :
    vscanWithLocale (fun l => env.withCustom false src l sc) loc [123, 125] src = some (.ok r, [.visit 0 src (.ok (v, r))]) := by
  unfold vscanWithLocale
  rw [if_pos ⟨rfl, hc⟩]
  unfold vscan
  rw [if_pos ⟨rfl, hc⟩]
  have : scanSimple (env.withCustom false src none sc) src = .ok (v, r) := by
    unfold scanSimple
    simp only [Env.withCustom, h0, hp]
    rw [customDefault_rest none p src (by rw [h]; intro h; cases h)]
    exact h
  rw [this]

/-- A scanner that says whether it was given a locale, and takes a character if there is one; its specification may be empty or "x". -/
def tellsLocale : CustomScanner Unit Int where
  parse
    | 120 :: r => some (r, .locale fun l => .get 0 fun c => .done (if l.isSome then 1 else 0) (if c.isSome then 1 else 0))
    | r => some (r, .locale fun l => .get 0 fun c => .done (if l.isSome then 1 else 0) (if c.isSome then 1 else 0))

/-- A call for one argument of that type. -/
def localeTold (l : Option Unit) : Env Int := (intArgs [.int]).withCustom false [97] l fun _ => some tellsLocale

/-- With a locale, "{:x}" and "{:}" pass it on and "{}" does not. -/
example : outcome (vscanWithLocale localeTold (some ()) [123, 58, 120, 125] [97]) = some (.inr [], [(0, 1)]) ∧
    outcome (vscanWithLocale localeTold (some ()) [123, 58, 125] [97]) = some (.inr [], [(0, 1)]) ∧
    outcome (vscanWithLocale localeTold (some ()) [123, 125] [97]) = some (.inr [], [(0, 0)]) := by decide +kernel

/-- The hypotheses of `C99_call_partial` hold for "{:x}". -/
example : CustomMeans (some ()) tellsLocale ⟨[], 0, some [120], fun s => onRest s (some ())
      (.locale fun l => .get 0 fun c => .done (if l.isSome then 1 else 0) (if c.isSome then 1 else 0))⟩ ∧
    onRest [97] (some ()) (.locale fun (l : Option Unit) => .get 0 fun c => .done (if l.isSome then (1 : Int) else 0) (if c.isSome then 1 else 0)) = .ok (1, []) :=
  ⟨⟨_, fun _ => rfl, rfl⟩, by decide +kernel⟩

/-- The hypotheses of `C99_contiguous_partial`, `C99_buffer_partial` and `C99_null_partial`: a scanner that takes two characters, unless the source ends. -/
example : let p : ScanProg Unit Nat := .get 0 fun c => match c with
      | none => .fail .endOfInput
      | some c => .inc 0 (.get 1 fun d => match d with | none => .done c 1 | some _ => .done c 2)
    OneByOne p ∧ onRest [97, 98, 99] none p = .ok (97, [99]) ∧ onRest [] none p = .err .endOfInput ∧
      p.onBuf 1 none ⟨.forward, [120], [97], [[98], [99]]⟩ = .ok ((97, 3), ⟨.forward, [120, 97], [98], [[99]]⟩) := by
  refine ⟨?_, by decide +kernel, by decide +kernel, by decide +kernel⟩
  intro c
  cases c with
  | none => trivial
  | some c => intro d; cases d <;> trivial

end Scn
