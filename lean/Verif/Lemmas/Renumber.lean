import Verif.Lemmas.Calls
import Verif.Model.Readers
import Verif.Spec.Renumber
/-
Helper lemmas: calls whose arguments have other numbers.
-/
namespace Scn
open Spec

variable {V : Type}

theorem inOrder_renumber (lit : List Nat → List Nat → Res (List Nat)) (π : Nat → Nat) (last : List Nat) : ∀ (fs : List (CallField V)) (s : List Nat),
    inOrder lit (fs.map (CallField.renumber π)) last s =
      (inOrder lit fs last s).map fun q => (q.1.map fun p => (π p.1, p.2), q.2) := by
  intro fs
  induction fs with
  | nil => intro s; simp only [List.map_nil, inOrder]; cases lit last s <;> rfl
  | cons f fs ih =>
    intro s
    simp only [List.map_cons, inOrder, CallField.renumber]
    cases lit f.gap s with
    | ub => rfl
    | err e => rfl
    | ok s1 =>
      simp only [Res.bind_ok]
      cases f.read s1 with
      | ub => rfl
      | err e => rfl
      | ok r =>
        simp only [Res.bind_ok]
        rw [ih r.2]
        cases inOrder lit fs last r.2 <;> rfl

theorem readBefore_renumber (lit : List Nat → List Nat → Res (List Nat)) (π : Nat → Nat) : ∀ (fs : List (CallField V)) (s : List Nat),
    readBefore lit (fs.map (CallField.renumber π)) s = (readBefore lit fs s).map fun p => (π p.1, p.2) := by
  intro fs
  induction fs with
  | nil => intro s; rfl
  | cons f fs ih =>
    intro s
    have h : ((lit (f.renumber π).gap s).bind (f.renumber π).read) = (lit f.gap s).bind f.read := rfl
    simp only [List.map_cons, readBefore, h]
    cases (lit f.gap s).bind f.read with
    | ub => rfl
    | err e => rfl
    | ok r => simp only [ih, List.map_cons]; rfl

theorem reached_renumber (lit : List Nat → List Nat → Res (List Nat)) (π : Nat → Nat) : ∀ (fs : List (CallField V)) (s : List Nat),
    reached lit (fs.map (CallField.renumber π)) s = reached lit fs s := by
  intro fs
  induction fs with
  | nil => intro s; rfl
  | cons f fs ih =>
    intro s
    have h : ((lit (f.renumber π).gap s).bind (f.renumber π).read) = (lit f.gap s).bind f.read := rfl
    simp only [List.map_cons, reached, h]
    cases (lit f.gap s).bind f.read with
    | ub => rfl
    | err e => rfl
    | ok r => simp only [ih]

theorem litLoop_congr {env env' : Env V} (he : env'.enc = env.enc) (hs : env'.skip = env.skip) : ∀ (n : Nat) (s t : List Nat),
    litLoop env' n s t = litLoop env n s t := by
  intro n
  induction n with
  | zero => intro s t; cases t <;> rfl
  | succ n ih =>
    intro s t
    cases t with
    | nil => rfl
    | cons c cs =>
      cases s with
      | nil => rfl
      | cons d ds => simp only [litLoop, he, hs, ih]

theorem litStep_stdEnv (e wide : Enc) (cfg : RegexCfg) (loc : LocaleData) (old : Nat) (ds ds' : List Dest) :
    litStep (stdEnv e wide cfg loc old ds') = litStep (stdEnv e wide cfg loc old ds) := by
  funext t s
  unfold litStep
  rw [litLoop_congr (env := stdEnv e wide cfg loc old ds) (env' := stdEnv e wide cfg loc old ds') rfl rfl]

theorem numbered_renumber {D : Type} {π : Nat → Nat} {ds ds' : List D} (h : Reordered π ds ds') {auto auto' : Bool} {ids : List Nat}
    (hn : Numbered auto ids ds.length) (ha : auto' = true → ids.map π = List.range ds.length) : Numbered auto' (ids.map π) ds'.length where
  nodup := by
    unfold List.Nodup
    rw [List.pairwise_map]
    refine List.Pairwise.imp_of_mem ?_ hn.nodup
    intro a b hx hy hne heq
    exact hne (h.inj a b (hn.below a hx) (hn.below b hy) heq)
  all := by rw [List.length_map, hn.all, h.length]
  below := by
    intro j hj
    obtain ⟨i, hi, rfl⟩ := List.mem_map.1 hj
    have hlt := hn.below i hi
    have := h.same i hlt
    rw [List.getElem?_eq_getElem hlt] at this
    exact (List.getElem?_eq_some_iff.1 this).1
  ordered := by intro h1; rw [h.length]; exact ha h1

theorem argTy_renumber {e wide : Enc} {cfg : RegexCfg} {loc : LocaleData} {old : Nat} {ds ds' : List Dest} {π : Nat → Nat} (h : Reordered π ds ds')
    {i : Nat} (hid : i < ds.length) : (stdEnv e wide cfg loc old ds').argTy (π i) = (stdEnv e wide cfg loc old ds).argTy i := by
  have hs := h.same i hid
  have hlt : π i < ds'.length := by
    rw [List.getElem?_eq_getElem hid] at hs
    exact (List.getElem?_eq_some_iff.1 hs).1
  have h1 : π i < (stdEnv e wide cfg loc old ds').count := hlt
  have h2 : i < (stdEnv e wide cfg loc old ds).count := hid
  unfold Env.argTy
  rw [if_pos h1, if_pos h2]
  show ((ds'[π i]?).map Dest.argTy).getD .none = ((ds[i]?).map Dest.argTy).getD .none
  rw [hs]

theorem fieldMeans_renumber {e wide : Enc} {cfg : RegexCfg} {loc : LocaleData} {old : Nat} {ds ds' : List Dest} {π : Nat → Nat} (h : Reordered π ds ds')
    {f : CallField Val} (hid : f.id < ds.length) (hm : FieldMeans (stdEnv e wide cfg loc old ds) f) :
    FieldMeans (stdEnv e wide cfg loc old ds') (f.renumber π) := by
  have hs := h.same f.id hid
  have hlt : π f.id < ds'.length := by
    rw [List.getElem?_eq_getElem hid] at hs
    exact (List.getElem?_eq_some_iff.1 hs).1
  have hty := argTy_renumber (e := e) (wide := wide) (cfg := cfg) (loc := loc) (old := old) h hid
  have hdef : (stdEnv e wide cfg loc old ds').readDefault (π f.id) = (stdEnv e wide cfg loc old ds).readDefault f.id := by
    funext s
    show (match ds'[π f.id]? with
      | none => Res.ub
      | some d => defaultRead e (d.defaultReader e wide) (fun _ => .contiguous) s) = (match ds[f.id]? with
      | none => Res.ub
      | some d => defaultRead e (d.defaultReader e wide) (fun _ => .contiguous) s)
    rw [hs]
  have hsp : (stdEnv e wide cfg loc old ds').readSpecs (π f.id) = (stdEnv e wide cfg loc old ds).readSpecs f.id := by
    funext sp s
    show (match ds'[π f.id]? with
      | none => Res.ub
      | some d => d.readSpecs e wide loc old sp (fun _ => .contiguous) s) = (match ds[f.id]? with
      | none => Res.ub
      | some d => d.readSpecs e wide loc old sp (fun _ => .contiguous) s)
    rw [hs]
  unfold FieldMeans at hm ⊢
  show (match f.spec with
    | none => f.read = (stdEnv e wide cfg loc old ds').readDefault (π f.id)
    | some t =>
      if (stdEnv e wide cfg loc old ds').argTy (π f.id) = .custom then
        ∀ r s, (stdEnv e wide cfg loc old ds').readCustom (π f.id) (t ++ 125 :: r) s = (125 :: r, f.read s)
      else ∃ sp, (∀ r, parseSpecs cfg e ((stdEnv e wide cfg loc old ds').argTy (π f.id)) ⟨{}, false⟩ (t ++ 125 :: r) = some (⟨sp, false⟩, 125 :: r)) ∧
        f.read = (stdEnv e wide cfg loc old ds').readSpecs (π f.id) sp)
  cases hspec : f.spec with
  | none => rw [hspec] at hm; dsimp only at hm ⊢; rw [hm, hdef]
  | some t =>
    rw [hspec] at hm
    dsimp only at hm ⊢
    rw [hty]
    split at hm
    · rename_i hc
      rw [if_pos hc]
      exact hm
    · rename_i hc
      rw [if_neg hc, hsp]
      exact hm

theorem stdEnv_argTy_custom {e wide : Enc} {cfg : RegexCfg} {loc : LocaleData} {old : Nat} {ds : List Dest} (h : ∀ d ∈ ds, d.argTy ≠ .custom) (i : Nat) :
    (stdEnv e wide cfg loc old ds).argTy i ≠ .custom := by
  unfold Env.argTy
  split
  · show ((ds[i]?).map Dest.argTy).getD .none ≠ .custom
    cases hd : ds[i]? with
    | none => intro h; cases h
    | some d => exact h d (List.mem_of_getElem? hd)
  · intro h; cases h

end Scn
